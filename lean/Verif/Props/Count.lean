import Verif.Asn1CountLemmas
import Verif.ClientCount
import Verif.Props.Trace
/-
C115: the work to read a message is proportional to its length, and so is the work to read the answers to a request for a ticket.
-/
namespace Verif.Kb
open Verif.Asn1
open Verif.Crypto (CErr Prims Key Cipher CaseMap newKerberosCipher)

/-! ### Same results -/

theorem parseResponse_count (g : Cfg) (raw : Bytes) : (countResponse g raw).1 = parseResponse g raw := by
  have h1 := (countKrbError_counts g).dec.same raw
  have h2 := (countAsRep_counts g).dec.same raw
  unfold countResponse parseResponse
  rw [← h1, ← h2]
  rcases (countKrbError g).dec g raw with ⟨(e | ⟨a, r⟩), c⟩
  · rcases (countAsRep g).dec g raw with ⟨x, c'⟩
    cases e <;> rfl
  · rfl

theorem countSaltLoop_same (g : Cfg) (l : List PaData) : (countSaltLoop g l).1 = saltLoop g l := by
  induction l with
  | nil => rfl
  | cons p ps ih =>
    unfold countSaltLoop saltLoop
    split
    · rw [← (Counts.seqOf (countEtypeInfo2Entry_counts g)).dec.same p.padata_value]
      rcases (countSeqOf g (countEtypeInfo2Entry g)).dec g p.padata_value with ⟨(e | ⟨a, r⟩), c⟩
      · rfl
      · dsimp only
        rcases firstSalt a with _ | s
        · exact ih
        · rfl
    · exact ih

theorem countSalt_same (g : Cfg) (r : AsRep) : (countSalt g r).1 = asRepSalt g r := by
  unfold countSalt asRepSalt
  cases r.padata with
  | none => rfl
  | some l => exact countSaltLoop_same g l

theorem countDecryptRep_same (P : Prims) (g : Cfg) (k : Key) (r : AsRep) : (countDecryptRep P g k r).1 = decryptRep P g k r := by
  cases k with
  | secret pw =>
    show (countDecryptWithPassword P g pw r).1 = decryptWithPassword P g pw r
    unfold countDecryptWithPassword decryptWithPassword
    rw [← countSalt_same]
    rcases liftX (newKerberosCipher r.enc_part.etype) with e | c
    · rfl
    · rcases countSalt g r with ⟨(e | s), n⟩ <;> rfl
  | rc4Key k => rfl
  | aes128Key k => rfl
  | aes256Key k => rfl

theorem countKdcRep_same (P : Prims) (g : Cfg) (k : Key) (r : AsRep) : (countKdcRep P g k r).1 = kdcRepToCredential P g k r := by
  unfold countKdcRep kdcRepToCredential
  rw [← countDecryptRep_same]
  rcases countDecryptRep P g k r with ⟨(e | p), n⟩
  · rfl
  · show _ = ((liftP ((encAsRepPartC g).dec g p) >>= _ : Except KErr Credential))
    rw [← (countEncAsRepPart_counts g).dec.same p]

theorem countExtract_same (P : Prims) (g : Cfg) (key : Option Key) (r : AsRep) :
    (countExtract P g key r).1 = extractCredential P g key r := by
  cases key with
  | none => rfl
  | some k =>
    unfold countExtract extractCredential
    dsimp only
    rw [← countKdcRep_same]
    rcases countKdcRep P g k r with ⟨(e | p), n⟩
    · cases e <;> rfl
    · rfl

theorem countAsRequest_same (P : Prims) (M : CaseMap) (g : Cfg) (net : Net) (e : Env) (username : List Char) (key : Option Key)
    (o : Options) (sent : List Bytes) :
    ((countAsRequest P M g net e username key o sent).1.1, (countAsRequest P M g net e username key o sent).2) =
      asRequest P M g net e username key o sent := by
  unfold countAsRequest asRequest
  rcases buildAsReq P M g e username key o with x | raw
  · rfl
  · dsimp only
    rcases net (sent ++ [raw]) with _ | a
    · rfl
    · dsimp only
      rw [parseResponse_count]

theorem countSecond_same (P : Prims) (M : CaseMap) (g : Cfg) (net : Net) (e : Env) (username : List Char) (key : Key)
    (o : Options) (sent : List Bytes) :
    ((countSecondRequest P M g net e username key o sent).1.1, (countSecondRequest P M g net e username key o sent).2) =
      secondRequest P M g net e username key o sent := by
  unfold countSecondRequest secondRequest
  rw [← countAsRequest_same]
  rcases countAsRequest P M g net e username (some key) o sent with ⟨⟨(x | (x | x)), n⟩, s⟩
  · rfl
  · rfl
  · dsimp only
    rw [countExtract_same]

theorem countTgtRequest_same (P : Prims) (M : CaseMap) (g : Cfg) (net : Net) (e1 e2 : Env) (username : List Char) (key : Option Key)
    (o : Options) :
    ((countTgtRequest P M g net e1 e2 username key o).1.1, (countTgtRequest P M g net e1 e2 username key o).2) =
      tgtRequest P M g net e1 e2 username key o := by
  unfold countTgtRequest tgtRequest
  rw [← countAsRequest_same]
  rcases countAsRequest P M g net e1 username none o [] with ⟨⟨(x | (x | x)), n⟩, s⟩
  · rfl
  · dsimp only
    split
    · rfl
    · cases key with
      | none => rfl
      | some k => dsimp only; rw [← countSecond_same]
  · dsimp only
    rw [countExtract_same]

/-! ### Bounds -/

theorem countResponse_cost (g : Cfg) (raw : Bytes) : (countResponse g raw).2 ≤ 18 * raw.length + 2 := by
  have h1 := (countKrbError_counts g).dec.cheap raw
  have h2 := (countAsRep_counts g).dec.cheap raw
  unfold countResponse
  revert h1 h2
  rcases (countKrbError g).dec g raw with ⟨(e | ⟨a, r⟩), c⟩
  · rcases (countAsRep g).dec g raw with ⟨x, c'⟩
    cases e <;> (dsimp only; omega)
  · dsimp only; omega

theorem loop_entries {α} {g : Cfg} {w : Counted α} {c : Codec α} (h : Counts g w c) (n : Nat) :
    ∀ b as, seqOfLoop g c n b = .ok as → as.length ≤ b.length := by
  induction n with
  | zero =>
    intro b as h
    cases b with
    | nil => cases h; exact Nat.le_refl _
    | cons x b => exact nomatch h
  | succ n ih =>
    intro b as hs
    cases b with
    | nil => cases hs; exact Nat.le_refl _
    | cons x b =>
      simp only [seqOfLoop] at hs
      split at hs
      · exact nomatch hs
      · rename_i a r hd
        have h1 := h.dec.left _ _ _ hd
        split at hs
        · exact nomatch hs
        · rename_i as' hl
          have h2 := ih _ _ hl
          injection hs with hs
          subst hs
          rw [List.length_cons]
          omega

theorem dec_entries {α} {g : Cfg} {w : Counted α} {c : Codec α} (h : Counts g w c) {b as r} (hd : (seqOfC g c).dec g b = .ok (as, r)) :
    as.length ≤ b.length := by
  have hl := hd
  unfold Codec.dec at hd
  have h1 := (countTlv_cost g (seqOfC g c).tag b).2
  split at hd
  · exact nomatch hd
  · rename_i v q hv
    have h1 := h1 _ _ hv
    split at hd
    · exact nomatch hd
    · rename_i a ha
      have h2 := loop_entries h _ _ _ ha
      injection hd with hd
      injection hd with hd _
      subst hd
      omega

theorem countSaltLoop_cost (g : Cfg) (l : List PaData) :
    (countSaltLoop g l).2 ≤ 10 * (l.map fun p => p.padata_value.length + 4).sum := by
  induction l with
  | nil => exact Nat.le_refl _
  | cons p ps ih =>
    rw [List.map_cons, List.sum_cons]
    unfold countSaltLoop
    split
    · have h0 := (Counts.seqOf (countEtypeInfo2Entry_counts g)).dec.same p.padata_value
      have h1 := (Counts.seqOf (countEtypeInfo2Entry_counts g)).dec.cheap p.padata_value
      have h2 := fun as r => dec_entries (b := p.padata_value) (as := as) (r := r) (countEtypeInfo2Entry_counts g)
      revert h1 h2
      rw [← h0]
      rcases (countSeqOf g (countEtypeInfo2Entry g)).dec g p.padata_value with ⟨(e | ⟨a, r⟩), c⟩
      · dsimp only; omega
      · dsimp only
        intro h1 h2
        have h2 := h2 a r rfl
        rcases firstSalt a with _ | s
        · revert ih
          rcases countSaltLoop g ps with ⟨x, c'⟩
          dsimp only; omega
        · dsimp only; omega
    · revert ih
      rcases countSaltLoop g ps with ⟨x, c'⟩
      dsimp only; omega

theorem padata_sum (g : Cfg) (l : List PaData) :
    (l.map fun p => p.padata_value.length + 4).sum ≤ ((seqOfC g (paDataC g)).enc l).length := by
  have h : ∀ l : List PaData, (l.map fun p => p.padata_value.length + 4).sum ≤ (l.flatMap (paDataC g).enc).length := by
    intro l
    induction l with
    | nil => exact Nat.le_refl _
    | cons p ps ih =>
      rw [List.map_cons, List.sum_cons, List.flatMap_cons, List.length_append]
      have : p.padata_value.length + 4 ≤ ((paDataC g).enc p).length := by
        show _ ≤ (tlv _ (tlv _ (tlv _ _) ++ (tlv _ (tlv _ p.padata_value) ++ []))).length
        simp only [tlv_len, List.length_append]
        omega
      omega
  have h1 := h l
  show _ ≤ (tlv _ (l.flatMap (paDataC g).enc)).length
  rw [tlv_len]
  omega

theorem req_skip {α β} {g : Cfg} {n : Nat} {c : Codec α} {f : Fields β} {v : α × β} {m : Nat} (h : m ≤ (f.build v.2).length) :
    m ≤ ((reqField g n c f).build v).length := by
  show m ≤ (tlv (ctxTag n) (c.enc v.1) ++ f.build v.2).length
  rw [List.length_append]; omega

theorem req_take {α β} {g : Cfg} {n : Nat} {c : Codec α} {f : Fields β} {v : α × β} {m : Nat} (h : m ≤ (c.enc v.1).length) :
    m ≤ ((reqField g n c f).build v).length := by
  show m ≤ (tlv (ctxTag n) (c.enc v.1) ++ f.build v.2).length
  rw [List.length_append, tlv_len]; omega

theorem opt_take {α β} {g : Cfg} {n : Nat} {c : Codec α} {f : Fields β} {v : Option α × β} {m k : Nat}
    (h : ∀ a, v.1 = some a → m ≤ (c.enc a).length) (h0 : v.1 = none → m = 0) (hk : k ≤ (f.build v.2).length) :
    m + k ≤ ((optField g n c f).build v).length := by
  obtain ⟨a, b⟩ := v
  cases a with
  | none =>
    have := h0 rfl
    show m + k ≤ ([] ++ f.build b).length
    rw [List.nil_append, this, Nat.zero_add]; exact hk
  | some a =>
    have := h a rfl
    show m + k ≤ (tlv (ctxTag n) (c.enc a) ++ f.build b).length
    rw [List.length_append, tlv_len]
    dsimp only at hk
    omega

theorem app_take {α} {g : Cfg} {n : Nat} {f : Fields α} {v : α} {m : Nat} (h : m ≤ (f.build v).length) :
    m ≤ ((appC g n f).enc v).length := by
  show m ≤ (tlv (appTag n) (tlv 0x30 (f.build v))).length
  rw [tlv_len, tlv_len]; omega

theorem reply_sum (g : Cfg) (r : AsRep) :
    ((r.padata.getD []).map fun p => p.padata_value.length + 4).sum + r.enc_part.cipher.length ≤ ((asRepC g).enc r).length := by
  have h1 : r.enc_part.cipher.length ≤ ((encryptedDataC g).enc r.enc_part).length := by
    show _ ≤ (tlv _ (tlv _ (tlv _ _) ++ (_ ++ (tlv _ (tlv _ r.enc_part.cipher) ++ [])))).length
    simp only [tlv_len, List.length_append]
    omega
  unfold asRepC
  apply app_take
  unfold AsRep.fields Fields.imap
  dsimp only
  apply req_skip
  apply req_skip
  apply opt_take
  · intro l hl
    dsimp only at hl
    rw [hl]
    exact padata_sum g l
  · intro hl
    dsimp only at hl
    rw [hl]
    rfl
  · apply req_skip
    apply req_skip
    apply req_skip
    exact req_take h1

/-- a plaintext is not longer than its ciphertext -/
theorem plain_le {P : Prims} (hP : P.Lawful) {c : Cipher} {key ct pt : Bytes} {u : Int32} (h : c.decrypt P key u ct = .ok pt) :
    pt.length ≤ ct.length := by
  by_cases hk : c.keyOk key
  · have := Crypto.c27_decrypt_size P hP c key hk u pt ct h
    omega
  · cases c with
    | rc4 => exact absurd trivial hk
    | aes sz =>
      have := (Crypto.c29_wrong_key_panics P sz key hk u pt [] ct).2
      rw [show Cipher.decrypt P (.aes sz) key u ct = Crypto.aesDecrypt P sz key u ct from rfl, this] at h
      exact nomatch h

theorem decryptRep_le {P : Prims} (hP : P.Lawful) {g : Cfg} {k : Key} {r : AsRep} {p : Bytes} (h : decryptRep P g k r = .ok p) :
    p.length ≤ r.enc_part.cipher.length := by
  have hkey : ∀ k : Key, decryptWithKey P k r = .ok p → p.length ≤ r.enc_part.cipher.length := by
    intro k h
    unfold decryptWithKey at h
    have h1 : tryDecryptWithKey P k r = .ok p := by
      revert h
      rcases tryDecryptWithKey P k r with e | b
      · cases e <;> (dsimp only; intro h; first | (split at h <;> cases h) | cases h)
      · exact id
    unfold tryDecryptWithKey at h1
    split at h1
    · exact nomatch h1
    · exact plain_le hP (liftX_ok.1 h1)
  cases k with
  | secret pw =>
    change decryptWithPassword P g pw r = .ok p at h
    unfold decryptWithPassword at h
    generalize liftX (newKerberosCipher r.enc_part.etype) = x at h
    generalize asRepSalt g r = y at h
    rcases x with e | c
    · cases h
    · rcases y with e | s
      · cases h
      · have h1 := liftX_ok.1 (show liftX (c.generateKeyFromStringAndDecrypt P pw s 3 r.enc_part.cipher) = .ok p from h)
        unfold Cipher.generateKeyFromStringAndDecrypt at h1
        split at h1
        · exact nomatch h1
        · exact plain_le hP h1
  | rc4Key k => exact hkey _ h
  | aes128Key k => exact hkey _ h
  | aes256Key k => exact hkey _ h

theorem countDecryptRep_cost (P : Prims) (g : Cfg) (k : Key) (r : AsRep) :
    (countDecryptRep P g k r).2 ≤ 10 * ((r.padata.getD []).map fun p => p.padata_value.length + 4).sum := by
  have hs : (countSalt g r).2 ≤ 10 * ((r.padata.getD []).map fun p => p.padata_value.length + 4).sum := by
    unfold countSalt
    cases r.padata with
    | none => exact Nat.zero_le _
    | some l => exact countSaltLoop_cost g l
  cases k with
  | secret pw =>
    show (countDecryptWithPassword P g pw r).2 ≤ _
    unfold countDecryptWithPassword
    revert hs
    rcases liftX (newKerberosCipher r.enc_part.etype) with e | c
    · exact fun _ => Nat.zero_le _
    · rcases countSalt g r with ⟨(e | s), n⟩ <;> exact id
  | rc4Key k => exact Nat.zero_le _
  | aes128Key k => exact Nat.zero_le _
  | aes256Key k => exact Nat.zero_le _

theorem countKdcRep_cost {P : Prims} (hP : P.Lawful) (g : Cfg) (k : Key) (r : AsRep) :
    (countKdcRep P g k r).2 ≤ 10 * ((asRepC g).enc r).length + 1 := by
  have h1 := countDecryptRep_same P g k r
  have h2 := countDecryptRep_cost P g k r
  have h3 := reply_sum g r
  have h4 := fun p => decryptRep_le (p := p) hP (g := g) (k := k) (r := r)
  unfold countKdcRep
  revert h2 h4
  rw [← h1]
  rcases countDecryptRep P g k r with ⟨(e | p), n⟩
  · dsimp only; omega
  · dsimp only
    intro h2 h4
    have h4 := h4 p rfl
    have h5 := (countEncAsRepPart_counts g).dec.cheap p
    revert h5
    rcases (countEncAsRepPart g).dec g p with ⟨x, c'⟩
    dsimp only; omega

theorem countExtract_cost {P : Prims} (hP : P.Lawful) (g : Cfg) (k : Option Key) (r : AsRep) :
    (countExtract P g k r).2 ≤ 10 * ((asRepC g).enc r).length + 1 := by
  cases k with
  | none => exact Nat.zero_le _
  | some k =>
    have h := countKdcRep_cost hP g k r
    unfold countExtract
    dsimp only
    revert h
    rcases countKdcRep P g k r with ⟨(e | p), n⟩
    · cases e <;> exact id
    · exact id

theorem reply_enc {g : Cfg} (hg : g.NoShort) {raw : Bytes} {r : AsRep} (h : parseResponse g raw = .ok (.asRep r)) :
    ((asRepC g).enc r).length ≤ raw.length := by
  obtain ⟨rest, hd⟩ := parseResponse_asRep h
  have h1 := (asRepG factor_one hg).dec factor_one hd
  omega

theorem countAsRequest_cost (P : Prims) (M : CaseMap) (g : Cfg) (hg : g.NoShort) (net : Net) (e : Env) (username : List Char)
    (key : Option Key) (o : Options) (sent : List Bytes) (L : Nat) (hL : ∀ sent a, net sent = some a → a.length ≤ L) :
    (countAsRequest P M g net e username key o sent).1.2 ≤ 18 * L + 2 ∧
      ∀ r, (countAsRequest P M g net e username key o sent).1.1 = .ok (.asRep r) → ((asRepC g).enc r).length ≤ L := by
  unfold countAsRequest
  rcases buildAsReq P M g e username key o with x | raw
  · exact ⟨Nat.zero_le _, fun r h => nomatch h⟩
  · dsimp only
    rcases hn : net (sent ++ [raw]) with _ | a
    · exact ⟨Nat.zero_le _, fun r h => nomatch h⟩
    · dsimp only
      have h1 := hL _ _ hn
      have h2 := countResponse_cost g a
      refine ⟨by omega, fun r h => ?_⟩
      rw [parseResponse_count] at h
      have := reply_enc hg h
      omega

theorem countSecond_cost (P : Prims) (hP : P.Lawful) (M : CaseMap) (g : Cfg) (hg : g.NoShort) (net : Net) (e : Env)
    (username : List Char) (key : Key) (o : Options) (sent : List Bytes) (L : Nat) (hL : ∀ sent a, net sent = some a → a.length ≤ L) :
    (countSecondRequest P M g net e username key o sent).1.2 ≤ 28 * L + 3 := by
  obtain ⟨h1, h2⟩ := countAsRequest_cost P M g hg net e username (some key) o sent L hL
  unfold countSecondRequest
  revert h1 h2
  rcases countAsRequest P M g net e username (some key) o sent with ⟨⟨(x | (x | x)), n⟩, s⟩
  · dsimp only; omega
  · dsimp only; omega
  · dsimp only
    intro h1 h2
    have h2 := h2 x rfl
    have := countExtract_cost hP g (some key) x
    omega

end Verif.Kb

namespace Verif.Asn1

/-! ### Theorems about messages -/

/-- C115. The counting parsers are the parsers of the library, with the steps beside the result. -/
theorem c115_same (g : Cfg) (T : MsgType) (raw : Bytes) : (T.count g raw).1 = T.parse g raw := (MsgType.counts g T).dec.same raw

/-- C115. Reading a message of any type, whatever the octets are, whatever lengths they announce and however they are nested, takes at
most nine steps for an octet and one more, whether or not it is accepted. -/
theorem c115_message (g : Cfg) (T : MsgType) (raw : Bytes) : (T.count g raw).2 ≤ 9 * raw.length + 1 :=
  (MsgType.counts g T).dec.cheap raw

/-- C115. A message that is accepted costs nothing for the octets that follow it. -/
theorem c115_accepted (g : Cfg) (T : MsgType) (raw rest : Bytes) (v : T.Value) (h : T.parse g raw = .ok (v, rest)) :
    (T.count g raw).2 + 9 * rest.length < 9 * raw.length := by
  have := (MsgType.counts g T).dec.left raw v rest h
  show ((T.counted g).dec g raw).2 + _ < _
  omega

/-- C115. Every octet is counted: a parser that accepts nothing left over takes more steps than the message has octets. -/
theorem c115_counted (g : Cfg) (hg : g.Strict) (T : MsgType) (raw rest : Bytes) (v : T.Value) (h : T.parse g raw = .ok (v, rest)) :
    raw.length < (T.count g raw).2 + rest.length := (MsgType.counts g T).dec.paid hg.seq hg.wrap raw v rest h

end Verif.Asn1

namespace Verif.Kb
open Verif.Asn1
open Verif.Crypto (Prims Key CaseMap)

/-! ### Theorems about requests -/

/-- C115. An answer is read in at most 18 steps for an octet and two more: once as an error, once as a reply. -/
theorem c115_answer (g : Cfg) (raw : Bytes) :
    (countResponse g raw).1 = parseResponse g raw ∧ (countResponse g raw).2 ≤ 18 * raw.length + 2 :=
  ⟨parseResponse_count g raw, countResponse_cost g raw⟩

/-- C115. Leaving out the steps gives the request for a ticket of the model: same result, same messages. -/
theorem c115_same_request (P : Prims) (M : CaseMap) (g : Cfg) (net : Net) (e1 e2 : Env) (username : List Char) (key : Option Key)
    (o : Options) :
    ((countTgtRequest P M g net e1 e2 username key o).1.1, (countTgtRequest P M g net e1 e2 username key o).2) =
      tgtRequest P M g net e1 e2 username key o := countTgtRequest_same P M g net e1 e2 username key o

/-- C115. Whatever a KDC answers, in messages of at most `L` octets, reading them, what is in their pre-authentication data and what
they decrypt to takes at most `46 L + 5` steps. -/
theorem c115_request (P : Prims) (hP : P.Lawful) (M : CaseMap) (g : Cfg) (hg : g.NoShort) (net : Net) (e1 e2 : Env)
    (username : List Char) (key : Option Key) (o : Options) (L : Nat) (hL : ∀ sent a, net sent = some a → a.length ≤ L) :
    (countTgtRequest P M g net e1 e2 username key o).1.2 ≤ 46 * L + 5 := by
  obtain ⟨h1, h2⟩ := countAsRequest_cost P M g hg net e1 username none o [] L hL
  unfold countTgtRequest
  revert h1 h2
  rcases countAsRequest P M g net e1 username none o [] with ⟨⟨(x | (x | x)), n⟩, s⟩
  · dsimp only; omega
  · dsimp only
    intro h1 h2
    split
    · dsimp only; omega
    · cases key with
      | none => dsimp only; omega
      | some k =>
        have := countSecond_cost P hP M g hg net e2 username k o s L hL
        dsimp only; omega
  · dsimp only
    intro h1 h2
    have h2 := h2 x rfl
    have := countExtract_cost hP g key x
    omega

/-! ### Examples -/

open Verif.Crypto (toyPrims asciiCase)

/-- a reply of 472 octets -/
example : ((MsgType.build strictCfg .asRep (exRep exPassword)).length,
    (MsgType.count strictCfg .asRep (MsgType.build strictCfg .asRep (exRep exPassword))).2) = (472, 591) := by decide +kernel

/-- a reply read as an answer is read twice: as an error, which fails at its tag, and as a reply -/
example : ((countResponse strictCfg (MsgType.build strictCfg .asRep (exRep exPassword))).2) = 593 := by decide +kernel

/-- a length that announces more than there is costs what was looked at -/
example : (MsgType.count strictCfg .asRep ([0x6b, 0x84, 0xff, 0xff, 0xff, 0xff] ++ List.replicate 100 0)).2 = 7 := by decide +kernel

/-- an error that asks for pre-authentication, then the ticket -/
example : (countTgtRequest toyPrims asciiCase strictCfg (exNet exPassword) exEnv exEnv "mickey".toList (some exPassword)
    exOptions).1.2 = 1097 := by decide +kernel

end Verif.Kb
