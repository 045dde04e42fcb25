import Verif.PowerModel
import Verif.Props.Warehouse
/-
Property theorems C116: what a power failure leaves of a saved file.
-/
set_option linter.unusedSimpArgs false
namespace Verif.Kb
open Verif.Asn1 Verif.Map

/-! ### Specification: devices -/

/-- A power failure on a device that keeps the order of changes: a first part of the changes was made, and perhaps a first
part of the bytes of the next write; nothing before a flush is lost. -/
def OrderedLoss (before : Option Bytes) (ops : List FsOp) (c : Option Bytes) : Prop :=
  ∃ kept lost, ops = kept ++ lost ∧ FsOp.sync ∉ lost ∧
    (c = contentAfter before kept ∨
     ∃ b rest k, lost = .append b :: rest ∧ c = contentAfter before (kept ++ [.append (b.take k)]))

/-- A power failure on a device that writes blocks of `B` octets in any order, where blocks not yet written read as zeros:
the file is as after a first part of the changes, or each block up to the length left is that of the new content or zeros;
nothing before a flush is lost. -/
def BlockLoss (B : Nat) (before : Option Bytes) (ops : List FsOp) (c : Option Bytes) : Prop :=
  ∃ kept lost, ops = kept ++ lost ∧ FsOp.sync ∉ lost ∧ (c = contentAfter before kept ∨
    (lost ≠ [] ∧ ∃ new left, contentAfter before ops = some new ∧ c = some left ∧ left.length ≤ new.length ∧
      ∀ n, (∀ i, i / B = n → i < left.length → left[i]? = new[i]?) ∨
           (∀ i, i / B = n → i < left.length → left[i]? = some 0)))

/-! ### The changes are those of `saveData` -/

theorem contentAfter_append (b : Option Bytes) (x y : List FsOp) :
    contentAfter b (x ++ y) = contentAfter (contentAfter b x) y := by
  simp [contentAfter, List.foldl_append]

theorem contentAfter_appends (c : Bytes) (ops : List FsOp) (h : ∀ o ∈ ops, ∃ b, o = .append b) :
    ∃ w, contentAfter (some c) ops = some (c ++ w) := by
  induction ops generalizing c with
  | nil => exact ⟨[], by simp [contentAfter]⟩
  | cons o os ih =>
    obtain ⟨b, rfl⟩ := h o (List.mem_cons_self ..)
    obtain ⟨w, hw⟩ := ih (c ++ b) (fun o ho => h o (List.mem_cons_of_mem _ ho))
    exact ⟨b ++ w, by rw [← List.append_assoc, ← hw]; rfl⟩

theorem writeOps_same (es : List WriteEvent) (data acc : Bytes) :
    (writeOps es data).1 = (writeAll es data).1 ∧
    contentAfter (some acc) (writeOps es data).2 = some (acc ++ (writeAll es data).2) ∧
    ∀ o ∈ (writeOps es data).2, ∃ b, o = .append b := by
  induction es generalizing data acc with
  | nil => cases data <;> simp [writeOps, writeAll, contentAfter]
  | cons e es ih =>
    cases data with
    | nil => simp [writeOps, writeAll, contentAfter]
    | cons b bs =>
      cases e with
      | interrupted => simpa [writeOps, writeAll] using ih (b :: bs) acc
      | fail => simp [writeOps, writeAll, contentAfter]
      | accept n =>
        by_cases hn : n = 0
        · simp [writeOps, writeAll, contentAfter, hn]
        · obtain ⟨h1, h2, h3⟩ := ih ((b :: bs).drop n) (acc ++ (b :: bs).take n)
          rw [writeOps, writeAll, if_neg hn, if_neg hn]
          refine ⟨h1, ?_, ?_⟩
          · rw [← List.append_assoc, ← h2]; rfl
          · intro o ho
            rcases List.mem_cons.1 ho with rfl | ho
            · exact ⟨_, rfl⟩
            · exact h3 o ho

/-- C116. The system calls give the result and the content of a save as in C25, and no flush is among them. -/
theorem c116_same (d : Disk) (before : Option Bytes) (data : Bytes) :
    (saveOps d data).1 = (saveData d before data).1 ∧
    contentAfter before (saveOps d data).2 = (saveData d before data).2 ∧ FsOp.sync ∉ (saveOps d data).2 := by
  obtain ⟨h1, h2, h3⟩ := writeOps_same d.writes data []
  have hs : FsOp.sync ∉ (writeOps d.writes data).2 := fun h => by obtain ⟨b, hb⟩ := h3 _ h; cases hb
  unfold saveOps saveData
  cases d.create with
  | failed => exact ⟨rfl, rfl, by simp⟩
  | cut => exact ⟨rfl, rfl, by simp⟩
  | done =>
    generalize writeOps d.writes data = x at *
    generalize writeAll d.writes data = y at *
    obtain ⟨a, ops⟩ := x
    obtain ⟨a', w⟩ := y
    dsimp only at h1 h2 hs
    subst h1
    have hc : contentAfter before (FsOp.create :: ops) = some w := by
      have e : contentAfter before (FsOp.create :: ops) = contentAfter (some []) ops := rfl
      rw [e, h2, List.nil_append]
    have hn : FsOp.sync ∉ FsOp.create :: ops := by simp [hs]
    cases a <;> exact ⟨rfl, hc, hn⟩

/-! ### A device that keeps the order -/

theorem orderedLoss_appends (c : Bytes) (ops : List FsOp) (h : ∀ o ∈ ops, ∃ b, o = .append b) (w : Bytes)
    (hw : contentAfter (some c) ops = some (c ++ w)) (x : Option Bytes) :
    OrderedLoss (some c) ops x ↔ ∃ k, x = some (c ++ w.take k) := by
  have hns : ∀ l : List FsOp, (∀ o ∈ l, ∃ b, o = .append b) → FsOp.sync ∉ l :=
    fun l hl hm => by obtain ⟨b, hb⟩ := hl _ hm; cases hb
  induction ops generalizing c w x with
  | nil =>
    have : w = [] := by simpa [contentAfter] using hw
    subst this
    constructor
    · rintro ⟨kept, lost, h1, -, h2⟩
      obtain ⟨rfl, rfl⟩ := List.append_eq_nil_iff.1 h1.symm
      rcases h2 with h2 | ⟨b, rest, k, h2, -⟩
      · exact ⟨0, by simpa [contentAfter] using h2⟩
      · cases h2
    · rintro ⟨k, rfl⟩
      exact ⟨[], [], rfl, by simp, .inl (by simp [contentAfter])⟩
  | cons o os ih =>
    obtain ⟨b, rfl⟩ := h o (List.mem_cons_self ..)
    have hos : ∀ o ∈ os, ∃ b, o = FsOp.append b := fun o ho => h o (List.mem_cons_of_mem _ ho)
    obtain ⟨v, hv⟩ := contentAfter_appends (c ++ b) os hos
    have hwv : w = b ++ v := by
      have : contentAfter (some (c ++ b)) os = some (c ++ w) := hw
      rw [hv, List.append_assoc] at this
      exact (List.append_cancel_left (Option.some.inj this)).symm
    subst hwv
    have ih' := ih (c ++ b) hos v hv x
    constructor
    · rintro ⟨kept, lost, h1, h2, h3⟩
      cases kept with
      | nil =>
        rw [List.nil_append] at h1
        subst h1
        rcases h3 with h3 | ⟨b', rest, k, h3, h4⟩
        · exact ⟨0, by simpa [contentAfter] using h3⟩
        · cases h3
          refine ⟨min k b.length, ?_⟩
          rw [h4, List.take_append_of_le_length (by omega)]
          have e : b.take (min k b.length) = b.take k := by
            rw [← List.take_take, List.take_length]
          rw [e]; rfl
      | cons o' kept =>
        rw [List.cons_append] at h1
        injection h1 with e h1
        subst e
        obtain ⟨k, hk⟩ := ih'.1 ⟨kept, lost, h1, h2, h3⟩
        refine ⟨b.length + k, ?_⟩
        have e : (b ++ v).take (b.length + k) = b ++ v.take k := by
          rw [List.take_append, List.take_of_length_le (by omega), Nat.add_sub_cancel_left]
        rw [hk, e, List.append_assoc]
    · rintro ⟨k, rfl⟩
      by_cases hk : k ≤ b.length
      · refine ⟨[], .append b :: os, rfl, hns _ h, .inr ⟨b, os, k, rfl, ?_⟩⟩
        rw [List.take_append_of_le_length hk]; rfl
      · obtain ⟨kept, lost, h1, h2, h3⟩ := (ih (c ++ b) hos v hv (some (c ++ b ++ v.take (k - b.length)))).2 ⟨k - b.length, rfl⟩
        refine ⟨.append b :: kept, lost, by rw [h1]; rfl, h2, ?_⟩
        have e : c ++ (b ++ v).take k = c ++ b ++ v.take (k - b.length) := by
          rw [List.take_append, List.take_of_length_le (by omega), List.append_assoc]
        rw [e]
        exact h3

/-- C116. A power failure during or after a save, on a device that keeps the order of changes, leaves the old content or a
first part of what was written, and each of these is possible. -/
theorem c116_ordered (d : Disk) (before : Option Bytes) (data : Bytes) (c : Option Bytes) :
    OrderedLoss before (saveOps d data).2 c ↔
      c = before ∨ (d.create = .done ∧ ∃ k, k ≤ (writeAll d.writes data).2.length ∧
        c = some ((writeAll d.writes data).2.take k)) := by
  obtain ⟨-, h2, h3⟩ := writeOps_same d.writes data []
  have hempty : ∀ x : Ended, x = d.create → x ≠ .done → (saveOps d data).2 = [] := by
    intro x hx hd
    unfold saveOps
    cases h : d.create with
    | done => exact absurd (hx.trans h) hd
    | failed => rfl
    | cut => rfl
  by_cases hd : d.create = .done
  · have hops : (saveOps d data).2 = .create :: (writeOps d.writes data).2 := by
      unfold saveOps
      rw [hd]
      generalize writeOps d.writes data = x
      obtain ⟨a, ops⟩ := x
      cases a <;> rfl
    have hl := orderedLoss_appends [] (writeOps d.writes data).2 h3 _ h2 c
    rw [hops]
    constructor
    · rintro ⟨kept, lost, h4, h5, h6⟩
      cases kept with
      | nil =>
        rw [List.nil_append] at h4
        subst h4
        rcases h6 with h6 | ⟨b, rest, k, h6, -⟩
        · exact .inl h6
        · cases h6
      | cons o kept =>
        rw [List.cons_append] at h4
        injection h4 with e h4
        subst e
        obtain ⟨k, hk⟩ := hl.1 ⟨kept, lost, h4, h5, h6⟩
        refine .inr ⟨hd, min k (writeAll d.writes data).2.length, by omega, ?_⟩
        rw [hk, List.nil_append, ← List.take_take, List.take_length]
    · rintro (rfl | ⟨-, k, -, rfl⟩)
      · refine ⟨[], _, rfl, ?_, .inl rfl⟩
        intro hm
        rcases List.mem_cons.1 hm with hm | hm
        · cases hm
        · obtain ⟨b, hb⟩ := h3 _ hm; cases hb
      · obtain ⟨kept, lost, h4, h5, h6⟩ := hl.2 ⟨k, by rw [List.nil_append]⟩
        exact ⟨.create :: kept, lost, by rw [h4]; rfl, h5, h6⟩
  · rw [hempty _ rfl hd]
    constructor
    · rintro ⟨kept, lost, h4, -, h5⟩
      obtain ⟨rfl, rfl⟩ := List.append_eq_nil_iff.1 h4.symm
      rcases h5 with h5 | ⟨b, rest, k, h5, -⟩
      · exact .inl h5
      · cases h5
    · rintro (rfl | ⟨h, -⟩)
      · exact ⟨[], [], rfl, by simp, .inl rfl⟩
      · exact absurd h hd

/-- C116. What is left then loads as before, or is refused without a panic, or gives the first credentials saved. -/
theorem c116_ordered_load (X : Ext) (g : Cfg) (w : Warehouse) (h : (w.toCCache X g).Fits) (d : Disk) (before : Option Bytes)
    (content : Bytes) (hl : OrderedLoss before (saveOps d (w.toCCache X g).build).2 (some content)) :
    before = some content ∨ (∃ e, e ≠ KErr.panic ∧ loadCCache g content = .error e) ∨
    ∃ w' j, loadCCache g content = .ok w' ∧ w'.realm = w.realm ∧ w'.client = w.client ∧
      List.Forall₂ Reloaded (w.credentials.take j) w'.credentials := by
  rcases (c116_ordered ..).1 hl with h1 | ⟨-, k, hk, h1⟩
  · exact .inl h1.symm
  · obtain ⟨n, hn, hw, -⟩ := writeAll_spec d.writes (w.toCCache X g).build
    rw [hw, List.take_take] at h1
    rw [Option.some.inj h1]
    exact .inr (c25_crash X g w h _ (by omega))

/-- C116, violated. Whenever a save succeeded, a power failure can bring back the old file, or leave no file if there was
none, and it can leave an empty file, which is refused; so success does not mean that the credentials are kept, nor that
the old ones are. -/
theorem c116_success_not_durable (g : Cfg) (d : Disk) (before : Option Bytes) (data : Bytes)
    (h : (saveOps d data).1 = some (.ok ())) :
    OrderedLoss before (saveOps d data).2 before ∧ OrderedLoss before (saveOps d data).2 (some []) ∧
      loadCCache g [] = .error .binaryParse := by
  have hd : d.create = .done := by
    unfold saveOps at h
    cases hc : d.create with
    | done => rfl
    | failed => rw [hc] at h; cases h
    | cut => rw [hc] at h; cases h
  exact ⟨(c116_ordered ..).2 (.inl rfl), (c116_ordered ..).2 (.inr ⟨hd, 0, Nat.zero_le _, rfl⟩), rfl⟩

theorem lost_after_flush {ops kept lost : List FsOp} (h1 : ops ++ [.sync] = kept ++ lost) (h2 : FsOp.sync ∉ lost) :
    lost = [] := by
  rcases List.eq_nil_or_concat lost with e | ⟨l, o, rfl⟩
  · exact e
  · rw [List.concat_eq_append, ← List.append_assoc] at h1
    have := (List.append_inj' h1 rfl).2
    cases this
    exact absurd (by simp) h2

/-- C116. With one flush after the last write (which the code does not have) what a power failure leaves of a save that
succeeded is the new content, on both kinds of device. -/
theorem c116_flush_is_enough (d : Disk) (before : Option Bytes) (data : Bytes) (h : (saveOps d data).1 = some (.ok ()))
    (c : Option Bytes) (B : Nat) :
    (OrderedLoss before ((saveOps d data).2 ++ [.sync]) c ↔ c = some data) ∧
    (BlockLoss B before ((saveOps d data).2 ++ [.sync]) c ↔ c = some data) := by
  have hc : contentAfter before ((saveOps d data).2 ++ [.sync]) = some data := by
    rw [contentAfter_append, (c116_same d before data).2.1, (c25_save d before data).2.1 ((c116_same d before data).1 ▸ h)]
    rfl
  refine ⟨⟨?_, ?_⟩, ⟨?_, ?_⟩⟩
  · rintro ⟨kept, lost, h1, h2, h3⟩
    have := lost_after_flush h1 h2
    subst this
    rcases h3 with h3 | ⟨b, rest, k, h3, -⟩
    · rw [List.append_nil] at h1
      rw [h3, ← h1, hc]
    · cases h3
  · rintro rfl
    exact ⟨_, [], (List.append_nil _).symm, by simp, .inl hc.symm⟩
  · rintro ⟨kept, lost, h1, h2, h3⟩
    have := lost_after_flush h1 h2
    subst this
    rcases h3 with h3 | ⟨h3, -⟩
    · rw [List.append_nil] at h1
      rw [h3, ← h1, hc]
    · exact absurd rfl h3
  · rintro rfl
    exact ⟨_, [], (List.append_nil _).symm, by simp, .inl hc.symm⟩

/-! ### A device that writes blocks -/

/-- the ticket with other encrypted bytes -/
def withCipher (t : Ticket) (x : Bytes) : Ticket := { t with enc_part := { t.enc_part with cipher := x } }

/-- the octets of `f x` for `x` of length `n` are those of `x` between fixed ones -/
def Framed (n : Nat) (f : Bytes → Bytes) : Prop := ∃ a c, ∀ x, x.length = n → f x = a ++ x ++ c

theorem framed_id (n : Nat) : Framed n id := ⟨[], [], fun x _ => by simp⟩

theorem Framed.before {n f} (h : Framed n f) (b : Bytes) : Framed n (fun x => b ++ f x) := by
  obtain ⟨a, c, h⟩ := h
  exact ⟨b ++ a, c, fun x hx => by simp only [h x hx, List.append_assoc]⟩

theorem Framed.after {n f} (h : Framed n f) (b : Bytes) : Framed n (fun x => f x ++ b) := by
  obtain ⟨a, c, h⟩ := h
  exact ⟨a, c ++ b, fun x hx => by simp only [h x hx, List.append_assoc]⟩

theorem Framed.lengthed {n f} (h : Framed n f) (p : Nat → Bytes) : Framed n (fun x => p (f x).length ++ f x) := by
  obtain ⟨a, c, h⟩ := h
  exact ⟨p (a.length + (n + c.length)) ++ a, c, fun x hx => by simp only [h x hx, List.length_append, hx, List.append_assoc]⟩

theorem Framed.tlv {n f} (h : Framed n f) (t : UInt8) : Framed n (fun x => Asn1.tlv t (f x)) :=
  h.lengthed (fun k => t :: buildLen k)

theorem Framed.congr {n f f'} (h : Framed n f) (e : ∀ x, f' x = f x) : Framed n f' := by
  obtain ⟨a, c, h⟩ := h
  exact ⟨a, c, fun x hx => (e x).trans (h x hx)⟩

theorem framed_ticket (g : Cfg) (t : Ticket) (n : Nat) : Framed n (fun x => (ticketC g).enc (withCipher t x)) := by
  have h1 : Framed n (fun x => (EncryptedData.fields g).build ⟨t.enc_part.etype, t.enc_part.kvno, x⟩) := by
    refine Framed.congr (((((framed_id n).tlv 0x04).tlv (ctxTag 2)).before
      (match t.enc_part.kvno with | some a => tlv (ctxTag 1) ((uint32C g).enc a) | none => [])).before
      (tlv (ctxTag 0) ((int32C g).enc t.enc_part.etype))) (fun x => ?_)
    simp only [EncryptedData.fields, Fields.imap, reqField, optField, noFields, octetsC, Codec.enc, List.append_nil]
    cases t.enc_part.kvno <;> rfl
  have h2 : Framed n (fun x => (Ticket.fields g).build (withCipher t x)) := by
    refine Framed.congr (((((h1.tlv 0x30).tlv (ctxTag 3)).before (tlv (ctxTag 2) ((principalNameC g).enc t.sname))).before
      (tlv (ctxTag 1) (stringC.enc t.realm))).before (tlv (ctxTag 0) ((int32C g).enc t.tkt_vno))) (fun x => ?_)
    simp only [Ticket.fields, Fields.imap, reqField, noFields, withCipher, List.append_nil, encryptedDataC, seqC, Codec.enc]
  exact (h2.tlv 0x30).tlv (appTag 1)

theorem framed_cache (X : Ext) (g : Cfg) (w : Warehouse) (pre post : List Credential) (c : Credential) (n : Nat) :
    Framed n (fun x => (Warehouse.toCCache X g { w with
      credentials := pre ++ { c with ticket := withCipher c.ticket x } :: post }).build) := by
  have h1 : Framed n (fun x => CC.buildCos ((ticketC g).enc (withCipher c.ticket x))) :=
    (framed_ticket g c.ticket n).lengthed (fun k => be32 (UInt32.ofNat k))
  have h2 : Framed n (fun x => (Credential.toEntry X g { c with ticket := withCipher c.ticket x }).build) := by
    let e : CC.Credential := c.toEntry X g
    refine Framed.congr ((h1.before (e.client.build ++ e.server.build ++ e.key.build ++ e.time.build ++ [e.is_skey]
      ++ be32 e.tktflags ++ be32 (UInt32.ofNat e.addrs.length) ++ e.addrs.flatMap CC.Address.build
      ++ be32 (UInt32.ofNat e.authdata.length) ++ e.authdata.flatMap CC.Address.build)).after
      (CC.buildCos [])) (fun x => ?_)
    simp only [e, toEntry_eq, CC.Credential.build, List.append_assoc]
    rfl
  have h3 := ((h2.after (post.flatMap (fun c => (c.toEntry X g).build))).before
    (pre.flatMap (fun c => (c.toEntry X g).build))).before (CC.CCache.build (Warehouse.toCCache X g { w with credentials := [] }))
  obtain ⟨a, b, h⟩ := h3
  refine ⟨a, b, fun x hx => ?_⟩
  rw [← h x hx]
  simp [Warehouse.toCCache, CC.CCache.build, CC.CCache.new, List.flatMap_append, List.flatMap_map]

theorem fits_withCipher {X g} {w : Warehouse} {pre post : List Credential} {c : Credential}
    (hw : w.credentials = pre ++ c :: post) (h : (w.toCCache X g).Fits) (x : Bytes)
    (hx : x.length = c.ticket.enc_part.cipher.length) :
    (Warehouse.toCCache X g { w with credentials := pre ++ { c with ticket := withCipher c.ticket x } :: post }).Fits := by
  obtain ⟨h1, h2, h3, h4⟩ := h
  refine ⟨h1, h2, h3, ?_⟩
  intro e he
  obtain ⟨k, hk, rfl⟩ := List.mem_map.1 he
  have old : ∀ k ∈ w.credentials, (k.toEntry X g).Fits := fun k hk => h4 _ (List.mem_map_of_mem hk)
  rw [hw] at old
  rcases List.mem_append.1 hk with hk | hk
  · exact old k (List.mem_append_left _ hk)
  rcases List.mem_cons.1 hk with rfl | hk
  · have h5 := old c (by simp)
    obtain ⟨p1, p2, p3, p4, p5, p6, p7, p8, p9⟩ := h5
    have key : ((ticketC g).enc (withCipher c.ticket x)).length < 2^32 →
        (Credential.toEntry X g { c with ticket := withCipher c.ticket x }).Fits := by
      intro hlen
      rw [toEntry_eq] at p1 p2 p3 p4 p5 p6 p7 p9 ⊢
      exact ⟨p1, p2, p3, p4, p5, p6, p7, hlen, p9⟩
    refine key ?_
    obtain ⟨a, b, hf⟩ := framed_ticket g c.ticket c.ticket.enc_part.cipher.length
    have e1 := congrArg List.length (hf x hx)
    have e2 := congrArg List.length (hf c.ticket.enc_part.cipher rfl)
    have p8' : ((ticketC g).enc (withCipher c.ticket c.ticket.enc_part.cipher)).length < 2^32 := by
      rw [toEntry_eq] at p8
      exact p8
    simp only [List.length_append] at e1 e2
    omega
  · exact old k (by simp [hk])

/-- the octets from `from` on, `len` of them, replaced by zeros -/
def zeroed (start len : Nat) (x : Bytes) : Bytes := x.mapIdx (fun i b => if start ≤ i ∧ i < start + len then 0 else b)

/-- C116, violated. Let a save have succeeded and one of the tickets be at least twice as long as a block. After a power
failure the file can be accepted as a whole and give a ticket in which a block of octets is zeros: a ticket nobody issued,
without an error, all else being as it was saved. -/
theorem c116_zero_block (X : Ext) (g : Cfg) (w : Warehouse) (pre post : List Credential) (c : Credential)
    (hw : w.credentials = pre ++ c :: post) (h : (w.toCCache X g).Fits) (hn : w.client.name_string ≠ [])
    (hc : ∀ c ∈ w.credentials, Cacheable c) (B : Nat) (hB : 0 < B) (hl : 2 * B ≤ c.ticket.enc_part.cipher.length)
    (d : Disk) (before : Option Bytes) (hs : (w.saveCCache X g d before).1 = some (.ok ())) :
    ∃ start content, start + B ≤ c.ticket.enc_part.cipher.length ∧
      BlockLoss B before (saveOps d (w.toCCache X g).build).2 (some content) ∧
      loadCCache g content = .ok { w with credentials := pre.map reset ++
        { reset c with ticket := withCipher c.ticket (zeroed start B c.ticket.enc_part.cipher) } :: post.map reset } := by
  obtain ⟨a, z, hf⟩ := framed_cache X g w pre post c c.ticket.enc_part.cipher.length
  generalize hcip : c.ticket.enc_part.cipher = x at *
  -- the first block boundary at or after the start of the ticket's bytes
  obtain ⟨n, hn1, hn2⟩ : ∃ n, a.length ≤ n * B ∧ n * B < a.length + B := by
    refine ⟨(a.length + B - 1) / B, ?_, ?_⟩
    · have := Nat.div_add_mod (a.length + B - 1) B
      have h2 := Nat.mod_lt (a.length + B - 1) hB
      rw [Nat.mul_comm] at this
      omega
    · have := Nat.div_mul_le_self (a.length + B - 1) B
      omega
  have hxl : (zeroed (n * B - a.length) B x).length = x.length := by simp [zeroed]
  refine ⟨n * B - a.length, a ++ zeroed (n * B - a.length) B x ++ z, by omega, ?_, ?_⟩
  · have hsame : (w.toCCache X g).build = a ++ x ++ z := by
      rw [← hf x rfl]
      congr 1
      have : ({ w with credentials := pre ++ { c with ticket := withCipher c.ticket x } :: post } : Warehouse) = w := by
        have e : withCipher c.ticket x = c.ticket := by rw [← hcip]; rfl
        rw [e, ← hw]
      rw [this]
    have hnew : contentAfter before (saveOps d (w.toCCache X g).build).2 = some (a ++ x ++ z) := by
      rw [(c116_same ..).2.1, ← hsame]
      exact (c25_save d before (w.toCCache X g).build).2.1 hs
    have hne : (saveOps d (w.toCCache X g).build).2 ≠ [] := by
      intro e
      have h1 : (saveOps d (w.toCCache X g).build).1 = some (.ok ()) := (c116_same d before _).1.trans hs
      unfold saveOps at h1 e
      cases hd : d.create with
      | failed => rw [hd] at h1; cases h1
      | cut => rw [hd] at h1; cases h1
      | done =>
        rw [hd] at e
        dsimp only at e
        generalize writeOps d.writes (w.toCCache X g).build = y at e
        obtain ⟨r, ops⟩ := y
        cases r <;> cases e
    refine ⟨[], _, rfl, (c116_same d before _).2.2, .inr ⟨hne, _, _, hnew, rfl, by simp [hxl], ?_⟩⟩
    intro m
    by_cases hm : m = n
    · right
      subst hm
      intro i hi _
      have hi2 : m * B ≤ i ∧ i < m * B + B := by
        have := Nat.div_add_mod i B
        have h2 := Nat.mod_lt i hB
        rw [hi, Nat.mul_comm] at this
        omega
      rw [List.getElem?_append_left (by rw [List.length_append, hxl]; omega), List.getElem?_append_right (by omega)]
      have hlt : i - a.length < x.length := by omega
      simp only [zeroed, List.getElem?_mapIdx, List.getElem?_eq_getElem hlt, Option.map_some]
      rw [if_pos (by omega)]
    · left
      intro i hi hlen
      by_cases h1 : i < a.length
      · rw [List.append_assoc, List.append_assoc, List.getElem?_append_left h1, List.getElem?_append_left h1]
      by_cases h2 : i < a.length + x.length
      · rw [List.getElem?_append_left (show i < (a ++ zeroed (n * B - a.length) B x).length by rw [List.length_append, hxl]; omega),
          List.getElem?_append_left (show i < (a ++ x).length by rw [List.length_append]; omega),
          List.getElem?_append_right (Nat.le_of_not_lt h1), List.getElem?_append_right (Nat.le_of_not_lt h1)]
        have hlt : i - a.length < x.length := by omega
        simp only [zeroed, List.getElem?_mapIdx, List.getElem?_eq_getElem hlt, Option.map_some]
        rw [if_neg]
        rintro ⟨h3, h4⟩
        refine hm (hi.symm.trans (Nat.div_eq_of_lt_le (by omega) ?_))
        rw [Nat.add_mul, Nat.one_mul]; omega
      · rw [List.getElem?_append_right (by rw [List.length_append, hxl]; omega), List.getElem?_append_right (by rw [List.length_append]; omega)]
        simp [hxl]
  · rw [← hf _ hxl, c25_reload_identity X g _ (fits_withCipher hw h _ (by rw [hxl, hcip])) hn]
    · rw [List.map_append, List.map_cons]; rfl
    · intro k hk
      rcases List.mem_append.1 hk with hk | hk
      · exact hc k (by rw [hw]; simp [hk])
      rcases List.mem_cons.1 hk with rfl | hk
      · exact have h5 := hc c (by rw [hw]; simp)
          ⟨⟨h5.1.1, h5.1.2⟩, h5.2, h5.3, h5.4, h5.5, h5.6, h5.7, h5.8⟩
      · exact hc k (by rw [hw]; simp [hk])

/-- C116. Zeros in place of a block of octets of which one is not zero make another ticket. -/
theorem c116_zero_block_differs (t : Ticket) (start len i : Nat) (b : UInt8) (hi : start ≤ i ∧ i < start + len)
    (h : t.enc_part.cipher[i]? = some b) (hb : b ≠ 0) : withCipher t (zeroed start len t.enc_part.cipher) ≠ t := by
  intro e
  have e1 : zeroed start len t.enc_part.cipher = t.enc_part.cipher := congrArg (fun t : Ticket => t.enc_part.cipher) e
  have e2 := congrArg (·[i]?) e1
  simp only [zeroed, List.getElem?_mapIdx, h, Option.map_some, if_pos hi] at e2
  exact hb (Option.some.inj e2).symm

/-! ### Cases that meet the hypotheses -/

/-- a credential with a ticket of two pages, no addresses and no start time -/
def exPage : Credential := ⟨exCredential.crealm, exCredential.cname, withCipher exTicket (List.replicate 8192 7),
  { exCredential.client_part with caddr := none, encrypted_pa_data := none, renew_till := none }⟩

def exPages : Warehouse := ⟨[exPage], exPage.crealm, exPage.cname⟩

/-- a disk that takes everything at once -/
def exBigDisk : Disk := ⟨.done, [.interrupted, .accept 100000]⟩

theorem exPage_cacheable : Cacheable exPage := by
  refine ⟨⟨List.cons_ne_nil _ _, List.cons_ne_nil _ _⟩, by decide +kernel, ⟨by decide, by decide, rfl⟩, ?_,
    ⟨by decide, by decide, rfl⟩, ?_, ?_, ?_⟩
  all_goals intro l hl; cases hl

theorem exPages_fits : (exPages.toCCache exExt strictCfg).Fits := by decide +kernel

theorem exPages_saved (before : Option Bytes) :
    (exPages.saveCCache exExt strictCfg exBigDisk before).1 = some (.ok ()) := by
  have hl : (exPages.toCCache exExt strictCfg).build.length ≤ 100000 := by decide +kernel
  have := c25_save_succeeds before (exPages.toCCache exExt strictCfg).build [.interrupted, .accept 100000]
    (by simp) (by simpa using hl)
  exact congrArg Prod.fst this

/-- c116_zero_block with blocks of 4096 octets: another ticket than the one saved is loaded without complaint -/
example (before : Option Bytes) : ∃ content c', BlockLoss 4096 before
    (saveOps exBigDisk (exPages.toCCache exExt strictCfg).build).2 (some content) ∧
    loadCCache strictCfg content = .ok { exPages with credentials := [c'] } ∧ c'.ticket ≠ exPage.ticket := by
  obtain ⟨start, content, h1, h2, h3⟩ := c116_zero_block exExt strictCfg exPages [] [] exPage rfl exPages_fits
    (List.cons_ne_nil _ _) (fun c hc => (List.mem_singleton.1 hc) ▸ exPage_cacheable) 4096 (by decide)
    (Nat.le_of_eq (show 2 * 4096 = (List.replicate 8192 (7 : UInt8)).length from (List.length_replicate).symm)) exBigDisk before (exPages_saved before)
  refine ⟨content, _, h2, h3, ?_⟩
  have hx : exPage.ticket.enc_part.cipher = List.replicate 8192 7 := rfl
  have hs : start < 8192 := by rw [hx, List.length_replicate] at h1; omega
  exact c116_zero_block_differs exPage.ticket start 4096 start 7 (by omega)
    (by rw [hx, List.getElem?_replicate, if_pos hs]) (by decide)

/-- c116_ordered_load and c116_success_not_durable: a file that was replaced, and the power failure -/
example (old : Bytes) : OrderedLoss (some old) (saveOps exBigDisk (exPages.toCCache exExt strictCfg).build).2 (some old) ∧
    OrderedLoss (some old) (saveOps exBigDisk (exPages.toCCache exExt strictCfg).build).2 (some []) := by
  have h := c116_success_not_durable strictCfg exBigDisk (some old) (exPages.toCCache exExt strictCfg).build
    ((c116_same exBigDisk none _).1.trans (exPages_saved none))
  exact ⟨h.1, h.2.1⟩

end Verif.Kb
