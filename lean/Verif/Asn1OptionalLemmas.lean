import Verif.Asn1OptionalSpec
import Verif.DerLemmas
/-
Lemmas for C60: components that are left out.
-/
namespace Verif.Asn1

/-- every spelling is well tagged -/
def TagsOk {α} (R : α → Der → Prop) : Prop := ∀ a d, R a d → d.Tagged
/-- the same for components -/
def ListTagsOk (P : List Der → Prop) : Prop := ∀ l, P l → Der.ListTagged l

theorem ListTagged_append (l m : List Der) (h : Der.ListTagged l) (h' : Der.ListTagged m) : Der.ListTagged (l ++ m) := by
  induction l with
  | nil => exact h'
  | cons d l ih => exact ⟨h.1, ih h.2⟩

theorem ListTagged_filter (p : Der → Bool) (l : List Der) (h : Der.ListTagged l) : Der.ListTagged (l.filter p) := by
  induction l with
  | nil => exact h
  | cons d l ih =>
    rw [List.filter_cons]
    split
    · exact ⟨h.1, ih h.2⟩
    · exact ih h.2

theorem ctx_tagged : ∀ n < 32, UInt8.ofNat (0xa0 + n) &&& 0x20 ≠ 0 := by decide
theorem ctx_number : ∀ n < 32, 0xa0 ≤ (UInt8.ofNat (0xa0 + n)).toNat ∧ (UInt8.ofNat (0xa0 + n)).toNat < 0xc0 ∧
    (UInt8.ofNat (0xa0 + n)).toNat - 0xa0 = n := by decide

theorem rInt32_tagged : TagsOk rInt32 := by
  rintro _ _ ⟨c, rfl, -⟩; show (0x02 : UInt8) &&& 0x20 = 0; decide
theorem rUInt32_tagged : TagsOk rUInt32 := by
  rintro _ _ ⟨c, rfl, -⟩; show (0x02 : UInt8) &&& 0x20 = 0; decide
theorem rBool_tagged : TagsOk rBool := by
  rintro _ _ ⟨c, rfl, -⟩; show (0x01 : UInt8) &&& 0x20 = 0; decide
theorem rOctets_tagged : TagsOk rOctets := by
  rintro _ _ rfl; show (0x04 : UInt8) &&& 0x20 = 0; decide
theorem rString_tagged : TagsOk rString := by
  rintro _ _ rfl; show (0x1b : UInt8) &&& 0x20 = 0; decide
theorem rBits_tagged : TagsOk rBits := by
  rintro _ _ rfl; show (0x03 : UInt8) &&& 0x20 = 0; decide
theorem rFlags_tagged : TagsOk rFlags := by
  rintro _ _ ⟨u, b, rfl, -⟩; show (0x03 : UInt8) &&& 0x20 = 0; decide
theorem rTime_tagged : TagsOk rTime := by
  rintro _ _ ⟨_, rfl⟩; show (0x18 : UInt8) &&& 0x20 = 0; decide

theorem rSeqOf_tagged {α} {R : α → Der → Prop} (h : TagsOk R) : TagsOk (rSeqOf R) := by
  rintro l _ ⟨ds, rfl, he⟩
  refine ⟨by decide, ?_⟩
  induction he with
  | nil => trivial
  | cons hr _ ih => exact ⟨h _ _ hr, ih⟩

theorem rReq_tagged {α} {R : α → Der → Prop} (h : TagsOk R) {n : Nat} (hn : n < 32) {a : α} : ListTagsOk (rReq n R a) := by
  rintro _ ⟨d, rfl, hr⟩
  exact ⟨⟨ctx_tagged n hn, h _ _ hr, trivial⟩, trivial⟩

theorem rOpt_tagged {α} {R : α → Der → Prop} (h : TagsOk R) {n : Nat} (hn : n < 32) {a : Option α} : ListTagsOk (rOpt n R a) := by
  intro l hl
  cases a with
  | none => cases hl; trivial
  | some a => exact rReq_tagged h hn l hl

theorem rThen_tagged {P Q : List Der → Prop} (h : ListTagsOk P) (h' : ListTagsOk Q) : ListTagsOk (P +> Q) := by
  rintro _ ⟨l, m, rfl, hp, hq⟩
  exact ListTagged_append l m (h l hp) (h' m hq)

theorem rSeq_tagged {P : List Der → Prop} (h : ListTagsOk P) {d : Der} (hd : rSeq P d) : d.Tagged := by
  obtain ⟨l, rfl, hp⟩ := hd
  exact ⟨by decide, h l hp⟩

theorem rApp_tagged {t : UInt8} (ht : t &&& 0x20 ≠ 0) {P : Der → Prop} (h : ∀ d, P d → d.Tagged) {d : Der} (hd : rApp t P d) :
    d.Tagged := by
  obtain ⟨x, rfl, hp⟩ := hd
  exact ⟨ht, h x hp, trivial⟩

theorem seqWithout_tagged (gone : Nat → Bool) (d : Der) (h : d.Tagged) : (d.seqWithout gone).Tagged := by
  cases d with
  | prim t c => exact h
  | node t l =>
    simp only [Der.seqWithout]
    split
    · exact ⟨h.1, ListTagged_filter _ l h.2⟩
    · exact h

theorem ListTagged_map (gone : Nat → Bool) (l : List Der) (h : Der.ListTagged l) : Der.ListTagged (l.map (Der.seqWithout gone)) := by
  induction l with
  | nil => exact h
  | cons d l ih => exact ⟨seqWithout_tagged gone d h.1, ih h.2⟩

theorem without_tagged (gone : Nat → Bool) (d : Der) (h : d.Tagged) : (d.without gone).Tagged := by
  cases d with
  | prim t c => exact h
  | node t l =>
    simp only [Der.without]
    split
    · exact ⟨h.1, ListTagged_map gone l h.2⟩
    · exact seqWithout_tagged gone _ h

/-! ### Which components there are -/

/-- numbers of components -/
def nums (l : List Der) : List Nat := l.filterMap Der.number?

theorem nums_append (l m : List Der) : nums (l ++ m) = nums l ++ nums m := List.filterMap_append

/-- all of `R` are there and none but those of `R` and `O` -/
def HasList (l : List Der) (R O : List Nat) : Prop := (∀ n ∈ R, n ∈ nums l) ∧ ∀ n ∈ nums l, n ∈ R ∨ n ∈ O
def Has (d : Der) (R O : List Nat) : Prop := HasList d.components R O

theorem number_ctx {n : Nat} (hn : n < 32) (l : List Der) : (Der.node (UInt8.ofNat (0xa0 + n)) l).number? = some n := by
  obtain ⟨h1, h2, h3⟩ := ctx_number n hn
  rw [Der.number?, if_pos ⟨h1, h2⟩, h3]

theorem rReq_comps {α} {R : α → Der → Prop} {n : Nat} (hn : n < 32) {a : α} : ∀ l, rReq n R a l → HasList l [n] [] := by
  rintro _ ⟨d, rfl, hr⟩
  have h : nums [.node (UInt8.ofNat (0xa0 + n)) [d]] = [n] := by
    simp only [nums, List.filterMap_cons, number_ctx hn, List.filterMap_nil]
  exact ⟨by rw [h]; exact fun _ h => h, by rw [h]; exact fun _ h => .inl h⟩

theorem rOpt_comps {α} {R : α → Der → Prop} {n : Nat} (hn : n < 32) {a : Option α} : ∀ l, rOpt n R a l → HasList l [] [n] := by
  intro l hl
  cases a with
  | none => cases hl; exact ⟨nofun, nofun⟩
  | some a =>
    have h := rReq_comps hn l hl
    exact ⟨nofun, fun m hm => .inr ((h.2 m hm).resolve_right nofun)⟩

theorem rThen_comps {P Q : List Der → Prop} {R O R' O' : List Nat} (h : ∀ l, P l → HasList l R O) (h' : ∀ l, Q l → HasList l R' O') :
    ∀ l, (P +> Q) l → HasList l (R ++ R') (O ++ O') := by
  rintro _ ⟨l, m, rfl, hp, hq⟩
  obtain ⟨a, b⟩ := h l hp
  obtain ⟨a', b'⟩ := h' m hq
  constructor
  · intro n hn
    rw [nums_append, List.mem_append]
    rcases List.mem_append.1 hn with x | x
    · exact .inl (a n x)
    · exact .inr (a' n x)
  · intro n hn
    rw [nums_append, List.mem_append] at hn
    rw [List.mem_append, List.mem_append]
    rcases hn with x | x
    · rcases b n x with y | y
      · exact .inl (.inl y)
      · exact .inr (.inl y)
    · rcases b' n x with y | y
      · exact .inl (.inr y)
      · exact .inr (.inr y)

theorem rSeq_comps {P : List Der → Prop} {R O : List Nat} (h : ∀ l, P l → HasList l R O) {d : Der} (hd : rSeq P d) : Has d R O := by
  obtain ⟨l, rfl, hp⟩ := hd
  exact h l hp

theorem rApp_comps {t : UInt8} (ht : 0x60 ≤ t.toNat ∧ t.toNat < 0x80) {P : List Der → Prop} {R O : List Nat}
    (h : ∀ l, P l → HasList l R O) {d : Der} (hd : rApp t (rSeq P) d) : Has d R O := by
  obtain ⟨_, rfl, l, rfl, hp⟩ := hd
  have : (Der.node t [.node 0x30 l]).components = l := by
    simp only [Der.components, if_pos ht, List.flatMap_cons, List.flatMap_nil, List.append_nil]
    rfl
  rw [Has, this]
  exact h l hp

theorem leave_append (gone : Nat → Bool) (l m : List Der) : leave gone (l ++ m) = leave gone l ++ leave gone m := List.filter_append ..

theorem nums_leave (gone : Nat → Bool) (l : List Der) (n : Nat) (h : n ∈ nums (leave gone l)) : gone n = false := by
  obtain ⟨d, hd, hn⟩ := List.mem_filterMap.1 h
  have := (List.mem_filter.1 hd).2
  rw [hn] at this
  simpa using this

theorem seqComponents_without (gone : Nat → Bool) (d : Der) : (d.seqWithout gone).seqComponents = leave gone d.seqComponents := by
  cases d with
  | prim t c => rfl
  | node t l =>
    simp only [Der.seqWithout, Der.seqComponents]
    by_cases ht : t = 0x30
    · rw [if_pos ht, if_pos ht]
      simp only [if_pos ht]
    · rw [if_neg ht, if_neg ht]
      simp only [if_neg ht]
      rfl

theorem seqWithout_node (gone : Nat → Bool) (t : UInt8) (l : List Der) : ∃ m, (Der.node t l).seqWithout gone = .node t m := by
  simp only [Der.seqWithout]
  split
  · exact ⟨_, rfl⟩
  · exact ⟨_, rfl⟩

theorem components_without (gone : Nat → Bool) (d : Der) : (d.without gone).components = leave gone d.components := by
  cases d with
  | prim t c => rfl
  | node t l =>
    by_cases ht : 0x60 ≤ t.toNat ∧ t.toNat < 0x80
    · simp only [Der.without, Der.components, if_pos ht]
      induction l with
      | nil => rfl
      | cons d l ih => rw [List.map_cons, List.flatMap_cons, List.flatMap_cons, ih, seqComponents_without, leave_append]
    · simp only [Der.without, Der.components, if_neg ht]
      obtain ⟨m, hm⟩ := seqWithout_node gone t l
      rw [← seqComponents_without, hm]
      simp only [if_neg ht]

/-! ### Leaving out -/

/-- a field that is left out -/
def drop {α} (gone : Nat → Bool) (n : Nat) (a : Option α) : Option α := if gone n then none else a

theorem leave_ctx {gone : Nat → Bool} {n : Nat} (hn : n < 32) (l : List Der) :
    leave gone [.node (UInt8.ofNat (0xa0 + n)) l] = if gone n then [] else [.node (UInt8.ofNat (0xa0 + n)) l] := by
  rw [leave, List.filter_cons, number_ctx hn]
  by_cases h : gone n = true <;> simp [h]

theorem rReq_leave {α} {R : α → Der → Prop} {gone : Nat → Bool} {n : Nat} (hn : n < 32) (hg : gone n = false) {a : α} :
    ∀ l, rReq n R a l → rReq n R a (leave gone l) := by
  rintro _ ⟨d, rfl, hr⟩
  refine ⟨d, ?_, hr⟩
  rw [leave_ctx hn, hg]; rfl

theorem rOpt_leave {α} {R : α → Der → Prop} {gone : Nat → Bool} {n : Nat} (hn : n < 32) {a : Option α} :
    ∀ l, rOpt n R a l → rOpt n R (drop gone n a) (leave gone l) := by
  intro l hl
  unfold drop
  cases a with
  | none => cases hl; cases gone n <;> rfl
  | some a =>
    obtain ⟨d, rfl, hr⟩ := hl
    rw [leave_ctx hn]
    cases gone n
    · exact ⟨d, rfl, hr⟩
    · rfl

theorem rThen_leave {gone : Nat → Bool} {P Q P' Q' : List Der → Prop} (h : ∀ l, P l → P' (leave gone l))
    (h' : ∀ l, Q l → Q' (leave gone l)) : ∀ l, (P +> Q) l → (P' +> Q') (leave gone l) := by
  rintro _ ⟨l, m, rfl, hp, hq⟩
  exact ⟨_, _, leave_append gone l m, h l hp, h' m hq⟩

theorem rSeq_without {gone : Nat → Bool} {P P' : List Der → Prop} (h : ∀ l, P l → P' (leave gone l)) {d : Der} (hd : rSeq P d) :
    rSeq P' (d.without gone) := by
  obtain ⟨l, rfl, hp⟩ := hd
  exact ⟨_, rfl, h l hp⟩

theorem node_without_seq (gone : Nat → Bool) (l : List Der) : (Der.node 0x30 l).without gone = .node 0x30 (leave gone l) := rfl

theorem node_without_app {t : UInt8} (ht : 0x60 ≤ t.toNat ∧ t.toNat < 0x80) (gone : Nat → Bool) (l : List Der) :
    (Der.node t [.node 0x30 l]).without gone = .node t [.node 0x30 (leave gone l)] := by
  simp only [Der.without, if_pos ht]
  rfl

theorem rApp_without {t : UInt8} (ht : 0x60 ≤ t.toNat ∧ t.toNat < 0x80) {gone : Nat → Bool} {P P' : List Der → Prop}
    (h : ∀ l, P l → P' (leave gone l)) {d : Der} (hd : rApp t (rSeq P) d) : rApp t (rSeq P') (d.without gone) := by
  obtain ⟨_, rfl, l, rfl, hp⟩ := hd
  exact ⟨_, node_without_app ht gone l, _, rfl, h l hp⟩

theorem leave_req {α} {gone : Nat → Bool} {n : Nat} (hn : n < 32) (hg : gone n = false) {f : α → Der} {a : α} :
    leave gone (req n f a) = req n f a := by
  rw [req, leave_ctx hn, hg]; rfl

theorem leave_opt {α} {gone : Nat → Bool} {n : Nat} (hn : n < 32) {f : α → Der} {a : Option α} :
    leave gone (opt n f a) = opt n f (drop gone n a) := by
  unfold drop
  cases a with
  | none => cases gone n <;> rfl
  | some a =>
    simp only [opt, req]
    rw [leave_ctx hn]
    cases gone n <;> rfl

theorem leave_none {gone : Nat → Bool} (h : ∀ n, gone n = false) (l : List Der) : leave gone l = l := by
  refine List.filter_eq_self.2 fun d _ => ?_
  split
  · rw [h]; rfl
  · rfl

theorem seqWithout_none {gone : Nat → Bool} (h : ∀ n, gone n = false) (d : Der) : d.seqWithout gone = d := by
  cases d with
  | prim t c => rfl
  | node t l =>
    simp only [Der.seqWithout, leave_none h]
    split <;> rfl

theorem without_none {gone : Nat → Bool} (h : ∀ n, gone n = false) (d : Der) : d.without gone = d := by
  cases d with
  | prim t c => rfl
  | node t l =>
    simp only [Der.without, seqWithout_none h]
    split
    · rw [List.map_congr_left (g := id) (fun d _ => seqWithout_none h d), List.map_id]
    · rfl

theorem EncryptedData_read_tagged : TagsOk EncryptedData.Read := fun _ _ h =>
    rSeq_tagged (rThen_tagged (rReq_tagged rInt32_tagged (by decide))
      (rThen_tagged (rOpt_tagged rUInt32_tagged (by decide))
      (rReq_tagged rOctets_tagged (by decide)))) h

theorem ApRep_read_tagged : TagsOk ApRep.Read := fun _ _ h =>
    rApp_tagged (by decide) (fun _ h => rSeq_tagged (rThen_tagged (rReq_tagged rInt32_tagged (by decide))
      (rThen_tagged (rReq_tagged rInt32_tagged (by decide))
      (rReq_tagged EncryptedData_read_tagged (by decide)))) h) h

theorem PrincipalName_read_tagged : TagsOk PrincipalName.Read := fun _ _ h =>
    rSeq_tagged (rThen_tagged (rReq_tagged rInt32_tagged (by decide))
      (rReq_tagged (rSeqOf_tagged rString_tagged) (by decide))) h

theorem Ticket_read_tagged : TagsOk Ticket.Read := fun _ _ h =>
    rApp_tagged (by decide) (fun _ h => rSeq_tagged (rThen_tagged (rReq_tagged rInt32_tagged (by decide))
      (rThen_tagged (rReq_tagged rString_tagged (by decide))
      (rThen_tagged (rReq_tagged PrincipalName_read_tagged (by decide))
      (rReq_tagged EncryptedData_read_tagged (by decide))))) h) h

theorem ApReq_read_tagged : TagsOk ApReq.Read := fun _ _ h =>
    rApp_tagged (by decide) (fun _ h => rSeq_tagged (rThen_tagged (rReq_tagged rInt32_tagged (by decide))
      (rThen_tagged (rReq_tagged rInt32_tagged (by decide))
      (rThen_tagged (rReq_tagged rFlags_tagged (by decide))
      (rThen_tagged (rReq_tagged Ticket_read_tagged (by decide))
      (rReq_tagged EncryptedData_read_tagged (by decide)))))) h) h

theorem PaData_read_tagged : TagsOk PaData.Read := fun _ _ h =>
    rSeq_tagged (rThen_tagged (rReq_tagged rInt32_tagged (by decide))
      (rReq_tagged rOctets_tagged (by decide))) h

theorem AsRep_read_tagged : TagsOk AsRep.Read := fun _ _ h =>
    rApp_tagged (by decide) (fun _ h => rSeq_tagged (rThen_tagged (rReq_tagged rInt32_tagged (by decide))
      (rThen_tagged (rReq_tagged rInt32_tagged (by decide))
      (rThen_tagged (rOpt_tagged (rSeqOf_tagged PaData_read_tagged) (by decide))
      (rThen_tagged (rReq_tagged rString_tagged (by decide))
      (rThen_tagged (rReq_tagged PrincipalName_read_tagged (by decide))
      (rThen_tagged (rReq_tagged Ticket_read_tagged (by decide))
      (rReq_tagged EncryptedData_read_tagged (by decide)))))))) h) h

theorem HostAddress_read_tagged : TagsOk HostAddress.Read := fun _ _ h =>
    rSeq_tagged (rThen_tagged (rReq_tagged rInt32_tagged (by decide))
      (rReq_tagged rOctets_tagged (by decide))) h

theorem KdcReqBody_read_tagged : TagsOk KdcReqBody.Read := fun _ _ h =>
    rSeq_tagged (rThen_tagged (rReq_tagged rFlags_tagged (by decide))
      (rThen_tagged (rOpt_tagged PrincipalName_read_tagged (by decide))
      (rThen_tagged (rReq_tagged rString_tagged (by decide))
      (rThen_tagged (rOpt_tagged PrincipalName_read_tagged (by decide))
      (rThen_tagged (rOpt_tagged rTime_tagged (by decide))
      (rThen_tagged (rReq_tagged rTime_tagged (by decide))
      (rThen_tagged (rOpt_tagged rTime_tagged (by decide))
      (rThen_tagged (rReq_tagged rUInt32_tagged (by decide))
      (rThen_tagged (rReq_tagged (rSeqOf_tagged rInt32_tagged) (by decide))
      (rThen_tagged (rOpt_tagged (rSeqOf_tagged HostAddress_read_tagged) (by decide))
      (rThen_tagged (rOpt_tagged EncryptedData_read_tagged (by decide))
      (rOpt_tagged (rSeqOf_tagged Ticket_read_tagged) (by decide))))))))))))) h

theorem AsReq_read_tagged : TagsOk AsReq.Read := fun _ _ h =>
    rApp_tagged (by decide) (fun _ h => rSeq_tagged (rThen_tagged (rReq_tagged rInt32_tagged (by decide))
      (rThen_tagged (rReq_tagged rInt32_tagged (by decide))
      (rThen_tagged (rOpt_tagged (rSeqOf_tagged PaData_read_tagged) (by decide))
      (rReq_tagged KdcReqBody_read_tagged (by decide))))) h) h

theorem Checksum_read_tagged : TagsOk Checksum.Read := fun _ _ h =>
    rSeq_tagged (rThen_tagged (rReq_tagged rInt32_tagged (by decide))
      (rReq_tagged rOctets_tagged (by decide))) h

theorem EncryptionKey_read_tagged : TagsOk EncryptionKey.Read := fun _ _ h =>
    rSeq_tagged (rThen_tagged (rReq_tagged rInt32_tagged (by decide))
      (rReq_tagged rOctets_tagged (by decide))) h

theorem AuthorizationDataEntry_read_tagged : TagsOk AuthorizationDataEntry.Read := fun _ _ h =>
    rSeq_tagged (rThen_tagged (rReq_tagged rInt32_tagged (by decide))
      (rReq_tagged rOctets_tagged (by decide))) h

theorem Authenticator_read_tagged : TagsOk Authenticator.Read := fun _ _ h =>
    rApp_tagged (by decide) (fun _ h => rSeq_tagged (rThen_tagged (rReq_tagged rInt32_tagged (by decide))
      (rThen_tagged (rReq_tagged rString_tagged (by decide))
      (rThen_tagged (rReq_tagged PrincipalName_read_tagged (by decide))
      (rThen_tagged (rOpt_tagged Checksum_read_tagged (by decide))
      (rThen_tagged (rReq_tagged rInt32_tagged (by decide))
      (rThen_tagged (rReq_tagged rTime_tagged (by decide))
      (rThen_tagged (rOpt_tagged EncryptionKey_read_tagged (by decide))
      (rThen_tagged (rOpt_tagged rUInt32_tagged (by decide))
      (rOpt_tagged (rSeqOf_tagged AuthorizationDataEntry_read_tagged) (by decide)))))))))) h) h

theorem EncApRepPart_read_tagged : TagsOk EncApRepPart.Read := fun _ _ h =>
    rApp_tagged (by decide) (fun _ h => rSeq_tagged (rThen_tagged (rReq_tagged rTime_tagged (by decide))
      (rThen_tagged (rReq_tagged rInt32_tagged (by decide))
      (rThen_tagged (rReq_tagged EncryptionKey_read_tagged (by decide))
      (rReq_tagged rUInt32_tagged (by decide))))) h) h

theorem LastReqEntry_read_tagged : TagsOk LastReqEntry.Read := fun _ _ h =>
    rSeq_tagged (rThen_tagged (rReq_tagged rInt32_tagged (by decide))
      (rReq_tagged rTime_tagged (by decide))) h

theorem EncAsRepPart_read_tagged : TagsOk EncAsRepPart.Read := fun _ _ h =>
    rApp_tagged (by decide) (fun _ h => rSeq_tagged (rThen_tagged (rReq_tagged EncryptionKey_read_tagged (by decide))
      (rThen_tagged (rReq_tagged (rSeqOf_tagged LastReqEntry_read_tagged) (by decide))
      (rThen_tagged (rReq_tagged rUInt32_tagged (by decide))
      (rThen_tagged (rOpt_tagged rTime_tagged (by decide))
      (rThen_tagged (rReq_tagged rFlags_tagged (by decide))
      (rThen_tagged (rReq_tagged rTime_tagged (by decide))
      (rThen_tagged (rOpt_tagged rTime_tagged (by decide))
      (rThen_tagged (rReq_tagged rTime_tagged (by decide))
      (rThen_tagged (rOpt_tagged rTime_tagged (by decide))
      (rThen_tagged (rReq_tagged rString_tagged (by decide))
      (rThen_tagged (rReq_tagged PrincipalName_read_tagged (by decide))
      (rThen_tagged (rOpt_tagged (rSeqOf_tagged HostAddress_read_tagged) (by decide))
      (rOpt_tagged (rSeqOf_tagged PaData_read_tagged) (by decide)))))))))))))) h) h

theorem EncKdcRepPart_read_tagged : TagsOk EncKdcRepPart.Read := fun _ _ h =>
    rSeq_tagged (rThen_tagged (rReq_tagged EncryptionKey_read_tagged (by decide))
      (rThen_tagged (rReq_tagged (rSeqOf_tagged LastReqEntry_read_tagged) (by decide))
      (rThen_tagged (rReq_tagged rUInt32_tagged (by decide))
      (rThen_tagged (rOpt_tagged rTime_tagged (by decide))
      (rThen_tagged (rReq_tagged rFlags_tagged (by decide))
      (rThen_tagged (rReq_tagged rTime_tagged (by decide))
      (rThen_tagged (rOpt_tagged rTime_tagged (by decide))
      (rThen_tagged (rReq_tagged rTime_tagged (by decide))
      (rThen_tagged (rOpt_tagged rTime_tagged (by decide))
      (rThen_tagged (rReq_tagged rString_tagged (by decide))
      (rThen_tagged (rReq_tagged PrincipalName_read_tagged (by decide))
      (rThen_tagged (rOpt_tagged (rSeqOf_tagged HostAddress_read_tagged) (by decide))
      (rOpt_tagged (rSeqOf_tagged PaData_read_tagged) (by decide)))))))))))))) h

theorem KrbCredInfo_read_tagged : TagsOk KrbCredInfo.Read := fun _ _ h =>
    rSeq_tagged (rThen_tagged (rReq_tagged EncryptionKey_read_tagged (by decide))
      (rThen_tagged (rOpt_tagged rString_tagged (by decide))
      (rThen_tagged (rOpt_tagged PrincipalName_read_tagged (by decide))
      (rThen_tagged (rOpt_tagged rFlags_tagged (by decide))
      (rThen_tagged (rOpt_tagged rTime_tagged (by decide))
      (rThen_tagged (rOpt_tagged rTime_tagged (by decide))
      (rThen_tagged (rOpt_tagged rTime_tagged (by decide))
      (rThen_tagged (rOpt_tagged rTime_tagged (by decide))
      (rThen_tagged (rOpt_tagged rString_tagged (by decide))
      (rThen_tagged (rOpt_tagged PrincipalName_read_tagged (by decide))
      (rOpt_tagged (rSeqOf_tagged HostAddress_read_tagged) (by decide)))))))))))) h

theorem EncKrbCredPart_read_tagged : TagsOk EncKrbCredPart.Read := fun _ _ h =>
    rApp_tagged (by decide) (fun _ h => rSeq_tagged (rThen_tagged (rReq_tagged (rSeqOf_tagged KrbCredInfo_read_tagged) (by decide))
      (rThen_tagged (rOpt_tagged rUInt32_tagged (by decide))
      (rThen_tagged (rOpt_tagged rTime_tagged (by decide))
      (rThen_tagged (rOpt_tagged rInt32_tagged (by decide))
      (rThen_tagged (rOpt_tagged HostAddress_read_tagged (by decide))
      (rOpt_tagged HostAddress_read_tagged (by decide))))))) h) h

theorem EncKrbPrivPart_read_tagged : TagsOk EncKrbPrivPart.Read := fun _ _ h =>
    rApp_tagged (by decide) (fun _ h => rSeq_tagged (rThen_tagged (rReq_tagged rOctets_tagged (by decide))
      (rThen_tagged (rOpt_tagged rTime_tagged (by decide))
      (rThen_tagged (rOpt_tagged rInt32_tagged (by decide))
      (rThen_tagged (rOpt_tagged rUInt32_tagged (by decide))
      (rThen_tagged (rReq_tagged HostAddress_read_tagged (by decide))
      (rOpt_tagged HostAddress_read_tagged (by decide))))))) h) h

theorem EncTgsRepPart_read_tagged : TagsOk EncTgsRepPart.Read := fun _ _ h =>
    rApp_tagged (by decide) (fun _ h => rSeq_tagged (rThen_tagged (rReq_tagged EncryptionKey_read_tagged (by decide))
      (rThen_tagged (rReq_tagged (rSeqOf_tagged LastReqEntry_read_tagged) (by decide))
      (rThen_tagged (rReq_tagged rUInt32_tagged (by decide))
      (rThen_tagged (rOpt_tagged rTime_tagged (by decide))
      (rThen_tagged (rReq_tagged rFlags_tagged (by decide))
      (rThen_tagged (rReq_tagged rTime_tagged (by decide))
      (rThen_tagged (rOpt_tagged rTime_tagged (by decide))
      (rThen_tagged (rReq_tagged rTime_tagged (by decide))
      (rThen_tagged (rOpt_tagged rTime_tagged (by decide))
      (rThen_tagged (rReq_tagged rString_tagged (by decide))
      (rThen_tagged (rReq_tagged PrincipalName_read_tagged (by decide))
      (rThen_tagged (rOpt_tagged (rSeqOf_tagged HostAddress_read_tagged) (by decide))
      (rOpt_tagged (rSeqOf_tagged PaData_read_tagged) (by decide)))))))))))))) h) h

theorem TransitedEncoding_read_tagged : TagsOk TransitedEncoding.Read := fun _ _ h =>
    rSeq_tagged (rThen_tagged (rReq_tagged rInt32_tagged (by decide))
      (rReq_tagged rOctets_tagged (by decide))) h

theorem EncTicketPart_read_tagged : TagsOk EncTicketPart.Read := fun _ _ h =>
    rApp_tagged (by decide) (fun _ h => rSeq_tagged (rThen_tagged (rReq_tagged rFlags_tagged (by decide))
      (rThen_tagged (rReq_tagged EncryptionKey_read_tagged (by decide))
      (rThen_tagged (rReq_tagged rString_tagged (by decide))
      (rThen_tagged (rReq_tagged PrincipalName_read_tagged (by decide))
      (rThen_tagged (rReq_tagged TransitedEncoding_read_tagged (by decide))
      (rThen_tagged (rReq_tagged rTime_tagged (by decide))
      (rThen_tagged (rOpt_tagged rTime_tagged (by decide))
      (rThen_tagged (rReq_tagged rTime_tagged (by decide))
      (rThen_tagged (rOpt_tagged rTime_tagged (by decide))
      (rThen_tagged (rOpt_tagged (rSeqOf_tagged HostAddress_read_tagged) (by decide))
      (rOpt_tagged (rSeqOf_tagged AuthorizationDataEntry_read_tagged) (by decide)))))))))))) h) h

theorem KdcReq_read_tagged : TagsOk KdcReq.Read := fun _ _ h =>
    rSeq_tagged (rThen_tagged (rReq_tagged rInt32_tagged (by decide))
      (rThen_tagged (rReq_tagged rInt32_tagged (by decide))
      (rThen_tagged (rOpt_tagged (rSeqOf_tagged PaData_read_tagged) (by decide))
      (rReq_tagged KdcReqBody_read_tagged (by decide))))) h

theorem KerbAdRestrictionEntry_read_tagged : TagsOk KerbAdRestrictionEntry.Read := fun _ _ h =>
    rSeq_tagged (rThen_tagged (rReq_tagged rInt32_tagged (by decide))
      (rReq_tagged rOctets_tagged (by decide))) h

theorem KerbErrorData_read_tagged : TagsOk KerbErrorData.Read := fun _ _ h =>
    rSeq_tagged (rThen_tagged (rReq_tagged rInt32_tagged (by decide))
      (rOpt_tagged rOctets_tagged (by decide))) h

theorem KrbCred_read_tagged : TagsOk KrbCred.Read := fun _ _ h =>
    rApp_tagged (by decide) (fun _ h => rSeq_tagged (rThen_tagged (rReq_tagged rInt32_tagged (by decide))
      (rThen_tagged (rReq_tagged rInt32_tagged (by decide))
      (rThen_tagged (rReq_tagged (rSeqOf_tagged Ticket_read_tagged) (by decide))
      (rReq_tagged EncryptedData_read_tagged (by decide))))) h) h

theorem KrbError_read_tagged : TagsOk KrbError.Read := fun _ _ h =>
    rApp_tagged (by decide) (fun _ h => rSeq_tagged (rThen_tagged (rReq_tagged rInt32_tagged (by decide))
      (rThen_tagged (rReq_tagged rInt32_tagged (by decide))
      (rThen_tagged (rOpt_tagged rTime_tagged (by decide))
      (rThen_tagged (rOpt_tagged rInt32_tagged (by decide))
      (rThen_tagged (rReq_tagged rTime_tagged (by decide))
      (rThen_tagged (rReq_tagged rInt32_tagged (by decide))
      (rThen_tagged (rReq_tagged rInt32_tagged (by decide))
      (rThen_tagged (rOpt_tagged rString_tagged (by decide))
      (rThen_tagged (rOpt_tagged PrincipalName_read_tagged (by decide))
      (rThen_tagged (rReq_tagged rString_tagged (by decide))
      (rThen_tagged (rReq_tagged PrincipalName_read_tagged (by decide))
      (rThen_tagged (rOpt_tagged rString_tagged (by decide))
      (rOpt_tagged rOctets_tagged (by decide)))))))))))))) h) h

theorem KrbPriv_read_tagged : TagsOk KrbPriv.Read := fun _ _ h =>
    rApp_tagged (by decide) (fun _ h => rSeq_tagged (rThen_tagged (rReq_tagged rInt32_tagged (by decide))
      (rThen_tagged (rReq_tagged rInt32_tagged (by decide))
      (rReq_tagged EncryptedData_read_tagged (by decide)))) h) h

theorem KrbSafeBody_read_tagged : TagsOk KrbSafeBody.Read := fun _ _ h =>
    rSeq_tagged (rThen_tagged (rReq_tagged rOctets_tagged (by decide))
      (rThen_tagged (rOpt_tagged rTime_tagged (by decide))
      (rThen_tagged (rOpt_tagged rInt32_tagged (by decide))
      (rThen_tagged (rOpt_tagged rUInt32_tagged (by decide))
      (rThen_tagged (rReq_tagged HostAddress_read_tagged (by decide))
      (rOpt_tagged HostAddress_read_tagged (by decide))))))) h

theorem KrbSafe_read_tagged : TagsOk KrbSafe.Read := fun _ _ h =>
    rApp_tagged (by decide) (fun _ h => rSeq_tagged (rThen_tagged (rReq_tagged rInt32_tagged (by decide))
      (rThen_tagged (rReq_tagged rInt32_tagged (by decide))
      (rThen_tagged (rReq_tagged KrbSafeBody_read_tagged (by decide))
      (rReq_tagged Checksum_read_tagged (by decide))))) h) h

theorem AdAndOr_read_tagged : TagsOk AdAndOr.Read := fun _ _ h =>
    rSeq_tagged (rThen_tagged (rReq_tagged rInt32_tagged (by decide))
      (rReq_tagged (rSeqOf_tagged AuthorizationDataEntry_read_tagged) (by decide))) h

theorem AdKdcIssued_read_tagged : TagsOk AdKdcIssued.Read := fun _ _ h =>
    rSeq_tagged (rThen_tagged (rReq_tagged Checksum_read_tagged (by decide))
      (rThen_tagged (rOpt_tagged rString_tagged (by decide))
      (rThen_tagged (rOpt_tagged PrincipalName_read_tagged (by decide))
      (rReq_tagged (rSeqOf_tagged AuthorizationDataEntry_read_tagged) (by decide))))) h

theorem EtypeInfo2Entry_read_tagged : TagsOk EtypeInfo2Entry.Read := fun _ _ h =>
    rSeq_tagged (rThen_tagged (rReq_tagged rInt32_tagged (by decide))
      (rThen_tagged (rOpt_tagged rString_tagged (by decide))
      (rOpt_tagged rOctets_tagged (by decide)))) h

theorem EtypeInfoEntry_read_tagged : TagsOk EtypeInfoEntry.Read := fun _ _ h =>
    rSeq_tagged (rThen_tagged (rReq_tagged rInt32_tagged (by decide))
      (rOpt_tagged rOctets_tagged (by decide))) h

theorem KerbPaPacRequest_read_tagged : TagsOk KerbPaPacRequest.Read := fun _ _ h =>
    rSeq_tagged (rReq_tagged rBool_tagged (by decide)) h

theorem PaEncTsEnc_read_tagged : TagsOk PaEncTsEnc.Read := fun _ _ h =>
    rSeq_tagged (rThen_tagged (rReq_tagged rTime_tagged (by decide))
      (rOpt_tagged rInt32_tagged (by decide))) h

theorem PaForUser_read_tagged : TagsOk PaForUser.Read := fun _ _ h =>
    rSeq_tagged (rThen_tagged (rReq_tagged PrincipalName_read_tagged (by decide))
      (rThen_tagged (rReq_tagged rString_tagged (by decide))
      (rThen_tagged (rReq_tagged Checksum_read_tagged (by decide))
      (rReq_tagged rString_tagged (by decide))))) h

theorem PaPacOptions_read_tagged : TagsOk PaPacOptions.Read := fun _ _ h =>
    rSeq_tagged (rReq_tagged rFlags_tagged (by decide)) h

theorem S4uUserId_read_tagged : TagsOk S4uUserId.Read := fun _ _ h =>
    rSeq_tagged (rThen_tagged (rReq_tagged rUInt32_tagged (by decide))
      (rThen_tagged (rOpt_tagged PrincipalName_read_tagged (by decide))
      (rThen_tagged (rReq_tagged rString_tagged (by decide))
      (rThen_tagged (rOpt_tagged rOctets_tagged (by decide))
      (rOpt_tagged rBits_tagged (by decide)))))) h

theorem PaS4uX509User_read_tagged : TagsOk PaS4uX509User.Read := fun _ _ h =>
    rSeq_tagged (rThen_tagged (rReq_tagged S4uUserId_read_tagged (by decide))
      (rReq_tagged Checksum_read_tagged (by decide))) h

theorem TgsRep_read_tagged : TagsOk TgsRep.Read := fun _ _ h =>
    rApp_tagged (by decide) (fun _ h => rSeq_tagged (rThen_tagged (rReq_tagged rInt32_tagged (by decide))
      (rThen_tagged (rReq_tagged rInt32_tagged (by decide))
      (rThen_tagged (rOpt_tagged (rSeqOf_tagged PaData_read_tagged) (by decide))
      (rThen_tagged (rReq_tagged rString_tagged (by decide))
      (rThen_tagged (rReq_tagged PrincipalName_read_tagged (by decide))
      (rThen_tagged (rReq_tagged Ticket_read_tagged (by decide))
      (rReq_tagged EncryptedData_read_tagged (by decide)))))))) h) h

theorem TgsReq_read_tagged : TagsOk TgsReq.Read := fun _ _ h =>
    rApp_tagged (by decide) (fun _ h => rSeq_tagged (rThen_tagged (rReq_tagged rInt32_tagged (by decide))
      (rThen_tagged (rReq_tagged rInt32_tagged (by decide))
      (rThen_tagged (rOpt_tagged (rSeqOf_tagged PaData_read_tagged) (by decide))
      (rReq_tagged KdcReqBody_read_tagged (by decide))))) h) h

theorem TypedDataEntry_read_tagged : TagsOk TypedDataEntry.Read := fun _ _ h =>
    rSeq_tagged (rThen_tagged (rReq_tagged rInt32_tagged (by decide))
      (rOpt_tagged rOctets_tagged (by decide))) h

theorem EncryptedData_read_comps (v : EncryptedData) (d : Der) (h : EncryptedData.Read v d) : Has d [0, 2] [1] :=
  rSeq_comps (R := [0, 2]) (O := [1]) (rThen_comps (rReq_comps (by decide)) (rThen_comps (rOpt_comps (by decide)) (rReq_comps (by decide)))) h

theorem ApRep_read_comps (v : ApRep) (d : Der) (h : ApRep.Read v d) : Has d [0, 1, 2] [] :=
  rApp_comps (by decide) (R := [0, 1, 2]) (O := []) (rThen_comps (rReq_comps (by decide)) (rThen_comps (rReq_comps (by decide)) (rReq_comps (by decide)))) h

theorem PrincipalName_read_comps (v : PrincipalName) (d : Der) (h : PrincipalName.Read v d) : Has d [0, 1] [] :=
  rSeq_comps (R := [0, 1]) (O := []) (rThen_comps (rReq_comps (by decide)) (rReq_comps (by decide))) h

theorem Ticket_read_comps (v : Ticket) (d : Der) (h : Ticket.Read v d) : Has d [0, 1, 2, 3] [] :=
  rApp_comps (by decide) (R := [0, 1, 2, 3]) (O := []) (rThen_comps (rReq_comps (by decide)) (rThen_comps (rReq_comps (by decide)) (rThen_comps (rReq_comps (by decide)) (rReq_comps (by decide))))) h

theorem ApReq_read_comps (v : ApReq) (d : Der) (h : ApReq.Read v d) : Has d [0, 1, 2, 3, 4] [] :=
  rApp_comps (by decide) (R := [0, 1, 2, 3, 4]) (O := []) (rThen_comps (rReq_comps (by decide)) (rThen_comps (rReq_comps (by decide)) (rThen_comps (rReq_comps (by decide)) (rThen_comps (rReq_comps (by decide)) (rReq_comps (by decide)))))) h

theorem PaData_read_comps (v : PaData) (d : Der) (h : PaData.Read v d) : Has d [1, 2] [] :=
  rSeq_comps (R := [1, 2]) (O := []) (rThen_comps (rReq_comps (by decide)) (rReq_comps (by decide))) h

theorem AsRep_read_comps (v : AsRep) (d : Der) (h : AsRep.Read v d) : Has d [0, 1, 3, 4, 5, 6] [2] :=
  rApp_comps (by decide) (R := [0, 1, 3, 4, 5, 6]) (O := [2]) (rThen_comps (rReq_comps (by decide)) (rThen_comps (rReq_comps (by decide)) (rThen_comps (rOpt_comps (by decide)) (rThen_comps (rReq_comps (by decide)) (rThen_comps (rReq_comps (by decide)) (rThen_comps (rReq_comps (by decide)) (rReq_comps (by decide)))))))) h

theorem HostAddress_read_comps (v : HostAddress) (d : Der) (h : HostAddress.Read v d) : Has d [0, 1] [] :=
  rSeq_comps (R := [0, 1]) (O := []) (rThen_comps (rReq_comps (by decide)) (rReq_comps (by decide))) h

theorem KdcReqBody_read_comps (v : KdcReqBody) (d : Der) (h : KdcReqBody.Read v d) : Has d [0, 2, 5, 7, 8] [1, 3, 4, 6, 9, 10, 11] :=
  rSeq_comps (R := [0, 2, 5, 7, 8]) (O := [1, 3, 4, 6, 9, 10, 11]) (rThen_comps (rReq_comps (by decide)) (rThen_comps (rOpt_comps (by decide)) (rThen_comps (rReq_comps (by decide)) (rThen_comps (rOpt_comps (by decide)) (rThen_comps (rOpt_comps (by decide)) (rThen_comps (rReq_comps (by decide)) (rThen_comps (rOpt_comps (by decide)) (rThen_comps (rReq_comps (by decide)) (rThen_comps (rReq_comps (by decide)) (rThen_comps (rOpt_comps (by decide)) (rThen_comps (rOpt_comps (by decide)) (rOpt_comps (by decide))))))))))))) h

theorem AsReq_read_comps (v : AsReq) (d : Der) (h : AsReq.Read v d) : Has d [1, 2, 4] [3] :=
  rApp_comps (by decide) (R := [1, 2, 4]) (O := [3]) (rThen_comps (rReq_comps (by decide)) (rThen_comps (rReq_comps (by decide)) (rThen_comps (rOpt_comps (by decide)) (rReq_comps (by decide))))) h

theorem Checksum_read_comps (v : Checksum) (d : Der) (h : Checksum.Read v d) : Has d [0, 1] [] :=
  rSeq_comps (R := [0, 1]) (O := []) (rThen_comps (rReq_comps (by decide)) (rReq_comps (by decide))) h

theorem EncryptionKey_read_comps (v : EncryptionKey) (d : Der) (h : EncryptionKey.Read v d) : Has d [0, 1] [] :=
  rSeq_comps (R := [0, 1]) (O := []) (rThen_comps (rReq_comps (by decide)) (rReq_comps (by decide))) h

theorem AuthorizationDataEntry_read_comps (v : AuthorizationDataEntry) (d : Der) (h : AuthorizationDataEntry.Read v d) : Has d [0, 1] [] :=
  rSeq_comps (R := [0, 1]) (O := []) (rThen_comps (rReq_comps (by decide)) (rReq_comps (by decide))) h

theorem Authenticator_read_comps (v : Authenticator) (d : Der) (h : Authenticator.Read v d) : Has d [0, 1, 2, 4, 5] [3, 6, 7, 8] :=
  rApp_comps (by decide) (R := [0, 1, 2, 4, 5]) (O := [3, 6, 7, 8]) (rThen_comps (rReq_comps (by decide)) (rThen_comps (rReq_comps (by decide)) (rThen_comps (rReq_comps (by decide)) (rThen_comps (rOpt_comps (by decide)) (rThen_comps (rReq_comps (by decide)) (rThen_comps (rReq_comps (by decide)) (rThen_comps (rOpt_comps (by decide)) (rThen_comps (rOpt_comps (by decide)) (rOpt_comps (by decide)))))))))) h

theorem EncApRepPart_read_comps (v : EncApRepPart) (d : Der) (h : EncApRepPart.Read v d) : Has d [0, 1, 2, 3] [] :=
  rApp_comps (by decide) (R := [0, 1, 2, 3]) (O := []) (rThen_comps (rReq_comps (by decide)) (rThen_comps (rReq_comps (by decide)) (rThen_comps (rReq_comps (by decide)) (rReq_comps (by decide))))) h

theorem LastReqEntry_read_comps (v : LastReqEntry) (d : Der) (h : LastReqEntry.Read v d) : Has d [0, 1] [] :=
  rSeq_comps (R := [0, 1]) (O := []) (rThen_comps (rReq_comps (by decide)) (rReq_comps (by decide))) h

theorem EncAsRepPart_read_comps (v : EncAsRepPart) (d : Der) (h : EncAsRepPart.Read v d) : Has d [0, 1, 2, 4, 5, 7, 9, 10] [3, 6, 8, 11, 12] :=
  rApp_comps (by decide) (R := [0, 1, 2, 4, 5, 7, 9, 10]) (O := [3, 6, 8, 11, 12]) (rThen_comps (rReq_comps (by decide)) (rThen_comps (rReq_comps (by decide)) (rThen_comps (rReq_comps (by decide)) (rThen_comps (rOpt_comps (by decide)) (rThen_comps (rReq_comps (by decide)) (rThen_comps (rReq_comps (by decide)) (rThen_comps (rOpt_comps (by decide)) (rThen_comps (rReq_comps (by decide)) (rThen_comps (rOpt_comps (by decide)) (rThen_comps (rReq_comps (by decide)) (rThen_comps (rReq_comps (by decide)) (rThen_comps (rOpt_comps (by decide)) (rOpt_comps (by decide)))))))))))))) h

theorem EncKdcRepPart_read_comps (v : EncKdcRepPart) (d : Der) (h : EncKdcRepPart.Read v d) : Has d [0, 1, 2, 4, 5, 7, 9, 10] [3, 6, 8, 11, 12] :=
  rSeq_comps (R := [0, 1, 2, 4, 5, 7, 9, 10]) (O := [3, 6, 8, 11, 12]) (rThen_comps (rReq_comps (by decide)) (rThen_comps (rReq_comps (by decide)) (rThen_comps (rReq_comps (by decide)) (rThen_comps (rOpt_comps (by decide)) (rThen_comps (rReq_comps (by decide)) (rThen_comps (rReq_comps (by decide)) (rThen_comps (rOpt_comps (by decide)) (rThen_comps (rReq_comps (by decide)) (rThen_comps (rOpt_comps (by decide)) (rThen_comps (rReq_comps (by decide)) (rThen_comps (rReq_comps (by decide)) (rThen_comps (rOpt_comps (by decide)) (rOpt_comps (by decide)))))))))))))) h

theorem KrbCredInfo_read_comps (v : KrbCredInfo) (d : Der) (h : KrbCredInfo.Read v d) : Has d [0] [1, 2, 3, 4, 5, 6, 7, 8, 9, 10] :=
  rSeq_comps (R := [0]) (O := [1, 2, 3, 4, 5, 6, 7, 8, 9, 10]) (rThen_comps (rReq_comps (by decide)) (rThen_comps (rOpt_comps (by decide)) (rThen_comps (rOpt_comps (by decide)) (rThen_comps (rOpt_comps (by decide)) (rThen_comps (rOpt_comps (by decide)) (rThen_comps (rOpt_comps (by decide)) (rThen_comps (rOpt_comps (by decide)) (rThen_comps (rOpt_comps (by decide)) (rThen_comps (rOpt_comps (by decide)) (rThen_comps (rOpt_comps (by decide)) (rOpt_comps (by decide)))))))))))) h

theorem EncKrbCredPart_read_comps (v : EncKrbCredPart) (d : Der) (h : EncKrbCredPart.Read v d) : Has d [0] [1, 2, 3, 4, 5] :=
  rApp_comps (by decide) (R := [0]) (O := [1, 2, 3, 4, 5]) (rThen_comps (rReq_comps (by decide)) (rThen_comps (rOpt_comps (by decide)) (rThen_comps (rOpt_comps (by decide)) (rThen_comps (rOpt_comps (by decide)) (rThen_comps (rOpt_comps (by decide)) (rOpt_comps (by decide))))))) h

theorem EncKrbPrivPart_read_comps (v : EncKrbPrivPart) (d : Der) (h : EncKrbPrivPart.Read v d) : Has d [0, 4] [1, 2, 3, 5] :=
  rApp_comps (by decide) (R := [0, 4]) (O := [1, 2, 3, 5]) (rThen_comps (rReq_comps (by decide)) (rThen_comps (rOpt_comps (by decide)) (rThen_comps (rOpt_comps (by decide)) (rThen_comps (rOpt_comps (by decide)) (rThen_comps (rReq_comps (by decide)) (rOpt_comps (by decide))))))) h

theorem EncTgsRepPart_read_comps (v : EncTgsRepPart) (d : Der) (h : EncTgsRepPart.Read v d) : Has d [0, 1, 2, 4, 5, 7, 9, 10] [3, 6, 8, 11, 12] :=
  rApp_comps (by decide) (R := [0, 1, 2, 4, 5, 7, 9, 10]) (O := [3, 6, 8, 11, 12]) (rThen_comps (rReq_comps (by decide)) (rThen_comps (rReq_comps (by decide)) (rThen_comps (rReq_comps (by decide)) (rThen_comps (rOpt_comps (by decide)) (rThen_comps (rReq_comps (by decide)) (rThen_comps (rReq_comps (by decide)) (rThen_comps (rOpt_comps (by decide)) (rThen_comps (rReq_comps (by decide)) (rThen_comps (rOpt_comps (by decide)) (rThen_comps (rReq_comps (by decide)) (rThen_comps (rReq_comps (by decide)) (rThen_comps (rOpt_comps (by decide)) (rOpt_comps (by decide)))))))))))))) h

theorem TransitedEncoding_read_comps (v : TransitedEncoding) (d : Der) (h : TransitedEncoding.Read v d) : Has d [0, 1] [] :=
  rSeq_comps (R := [0, 1]) (O := []) (rThen_comps (rReq_comps (by decide)) (rReq_comps (by decide))) h

theorem EncTicketPart_read_comps (v : EncTicketPart) (d : Der) (h : EncTicketPart.Read v d) : Has d [0, 1, 2, 3, 4, 5, 7] [6, 8, 9, 10] :=
  rApp_comps (by decide) (R := [0, 1, 2, 3, 4, 5, 7]) (O := [6, 8, 9, 10]) (rThen_comps (rReq_comps (by decide)) (rThen_comps (rReq_comps (by decide)) (rThen_comps (rReq_comps (by decide)) (rThen_comps (rReq_comps (by decide)) (rThen_comps (rReq_comps (by decide)) (rThen_comps (rReq_comps (by decide)) (rThen_comps (rOpt_comps (by decide)) (rThen_comps (rReq_comps (by decide)) (rThen_comps (rOpt_comps (by decide)) (rThen_comps (rOpt_comps (by decide)) (rOpt_comps (by decide)))))))))))) h

theorem KdcReq_read_comps (v : KdcReq) (d : Der) (h : KdcReq.Read v d) : Has d [1, 2, 4] [3] :=
  rSeq_comps (R := [1, 2, 4]) (O := [3]) (rThen_comps (rReq_comps (by decide)) (rThen_comps (rReq_comps (by decide)) (rThen_comps (rOpt_comps (by decide)) (rReq_comps (by decide))))) h

theorem KerbAdRestrictionEntry_read_comps (v : KerbAdRestrictionEntry) (d : Der) (h : KerbAdRestrictionEntry.Read v d) : Has d [0, 1] [] :=
  rSeq_comps (R := [0, 1]) (O := []) (rThen_comps (rReq_comps (by decide)) (rReq_comps (by decide))) h

theorem KerbErrorData_read_comps (v : KerbErrorData) (d : Der) (h : KerbErrorData.Read v d) : Has d [1] [2] :=
  rSeq_comps (R := [1]) (O := [2]) (rThen_comps (rReq_comps (by decide)) (rOpt_comps (by decide))) h

theorem KrbCred_read_comps (v : KrbCred) (d : Der) (h : KrbCred.Read v d) : Has d [0, 1, 2, 3] [] :=
  rApp_comps (by decide) (R := [0, 1, 2, 3]) (O := []) (rThen_comps (rReq_comps (by decide)) (rThen_comps (rReq_comps (by decide)) (rThen_comps (rReq_comps (by decide)) (rReq_comps (by decide))))) h

theorem KrbError_read_comps (v : KrbError) (d : Der) (h : KrbError.Read v d) : Has d [0, 1, 4, 5, 6, 9, 10] [2, 3, 7, 8, 11, 12] :=
  rApp_comps (by decide) (R := [0, 1, 4, 5, 6, 9, 10]) (O := [2, 3, 7, 8, 11, 12]) (rThen_comps (rReq_comps (by decide)) (rThen_comps (rReq_comps (by decide)) (rThen_comps (rOpt_comps (by decide)) (rThen_comps (rOpt_comps (by decide)) (rThen_comps (rReq_comps (by decide)) (rThen_comps (rReq_comps (by decide)) (rThen_comps (rReq_comps (by decide)) (rThen_comps (rOpt_comps (by decide)) (rThen_comps (rOpt_comps (by decide)) (rThen_comps (rReq_comps (by decide)) (rThen_comps (rReq_comps (by decide)) (rThen_comps (rOpt_comps (by decide)) (rOpt_comps (by decide)))))))))))))) h

theorem KrbPriv_read_comps (v : KrbPriv) (d : Der) (h : KrbPriv.Read v d) : Has d [0, 1, 3] [] :=
  rApp_comps (by decide) (R := [0, 1, 3]) (O := []) (rThen_comps (rReq_comps (by decide)) (rThen_comps (rReq_comps (by decide)) (rReq_comps (by decide)))) h

theorem KrbSafeBody_read_comps (v : KrbSafeBody) (d : Der) (h : KrbSafeBody.Read v d) : Has d [0, 4] [1, 2, 3, 5] :=
  rSeq_comps (R := [0, 4]) (O := [1, 2, 3, 5]) (rThen_comps (rReq_comps (by decide)) (rThen_comps (rOpt_comps (by decide)) (rThen_comps (rOpt_comps (by decide)) (rThen_comps (rOpt_comps (by decide)) (rThen_comps (rReq_comps (by decide)) (rOpt_comps (by decide))))))) h

theorem KrbSafe_read_comps (v : KrbSafe) (d : Der) (h : KrbSafe.Read v d) : Has d [0, 1, 2, 3] [] :=
  rApp_comps (by decide) (R := [0, 1, 2, 3]) (O := []) (rThen_comps (rReq_comps (by decide)) (rThen_comps (rReq_comps (by decide)) (rThen_comps (rReq_comps (by decide)) (rReq_comps (by decide))))) h

theorem AdAndOr_read_comps (v : AdAndOr) (d : Der) (h : AdAndOr.Read v d) : Has d [0, 1] [] :=
  rSeq_comps (R := [0, 1]) (O := []) (rThen_comps (rReq_comps (by decide)) (rReq_comps (by decide))) h

theorem AdKdcIssued_read_comps (v : AdKdcIssued) (d : Der) (h : AdKdcIssued.Read v d) : Has d [0, 3] [1, 2] :=
  rSeq_comps (R := [0, 3]) (O := [1, 2]) (rThen_comps (rReq_comps (by decide)) (rThen_comps (rOpt_comps (by decide)) (rThen_comps (rOpt_comps (by decide)) (rReq_comps (by decide))))) h

theorem EtypeInfo2Entry_read_comps (v : EtypeInfo2Entry) (d : Der) (h : EtypeInfo2Entry.Read v d) : Has d [0] [1, 2] :=
  rSeq_comps (R := [0]) (O := [1, 2]) (rThen_comps (rReq_comps (by decide)) (rThen_comps (rOpt_comps (by decide)) (rOpt_comps (by decide)))) h

theorem EtypeInfoEntry_read_comps (v : EtypeInfoEntry) (d : Der) (h : EtypeInfoEntry.Read v d) : Has d [0] [1] :=
  rSeq_comps (R := [0]) (O := [1]) (rThen_comps (rReq_comps (by decide)) (rOpt_comps (by decide))) h

theorem KerbPaPacRequest_read_comps (v : KerbPaPacRequest) (d : Der) (h : KerbPaPacRequest.Read v d) : Has d [0] [] :=
  rSeq_comps (R := [0]) (O := []) (rReq_comps (by decide)) h

theorem PaEncTsEnc_read_comps (v : PaEncTsEnc) (d : Der) (h : PaEncTsEnc.Read v d) : Has d [0] [1] :=
  rSeq_comps (R := [0]) (O := [1]) (rThen_comps (rReq_comps (by decide)) (rOpt_comps (by decide))) h

theorem PaForUser_read_comps (v : PaForUser) (d : Der) (h : PaForUser.Read v d) : Has d [0, 1, 2, 3] [] :=
  rSeq_comps (R := [0, 1, 2, 3]) (O := []) (rThen_comps (rReq_comps (by decide)) (rThen_comps (rReq_comps (by decide)) (rThen_comps (rReq_comps (by decide)) (rReq_comps (by decide))))) h

theorem PaPacOptions_read_comps (v : PaPacOptions) (d : Der) (h : PaPacOptions.Read v d) : Has d [0] [] :=
  rSeq_comps (R := [0]) (O := []) (rReq_comps (by decide)) h

theorem S4uUserId_read_comps (v : S4uUserId) (d : Der) (h : S4uUserId.Read v d) : Has d [0, 2] [1, 3, 4] :=
  rSeq_comps (R := [0, 2]) (O := [1, 3, 4]) (rThen_comps (rReq_comps (by decide)) (rThen_comps (rOpt_comps (by decide)) (rThen_comps (rReq_comps (by decide)) (rThen_comps (rOpt_comps (by decide)) (rOpt_comps (by decide)))))) h

theorem PaS4uX509User_read_comps (v : PaS4uX509User) (d : Der) (h : PaS4uX509User.Read v d) : Has d [0, 1] [] :=
  rSeq_comps (R := [0, 1]) (O := []) (rThen_comps (rReq_comps (by decide)) (rReq_comps (by decide))) h

theorem TgsRep_read_comps (v : TgsRep) (d : Der) (h : TgsRep.Read v d) : Has d [0, 1, 3, 4, 5, 6] [2] :=
  rApp_comps (by decide) (R := [0, 1, 3, 4, 5, 6]) (O := [2]) (rThen_comps (rReq_comps (by decide)) (rThen_comps (rReq_comps (by decide)) (rThen_comps (rOpt_comps (by decide)) (rThen_comps (rReq_comps (by decide)) (rThen_comps (rReq_comps (by decide)) (rThen_comps (rReq_comps (by decide)) (rReq_comps (by decide)))))))) h

theorem TgsReq_read_comps (v : TgsReq) (d : Der) (h : TgsReq.Read v d) : Has d [1, 2, 4] [3] :=
  rApp_comps (by decide) (R := [1, 2, 4]) (O := [3]) (rThen_comps (rReq_comps (by decide)) (rThen_comps (rReq_comps (by decide)) (rThen_comps (rOpt_comps (by decide)) (rReq_comps (by decide))))) h

theorem TypedDataEntry_read_comps (v : TypedDataEntry) (d : Der) (h : TypedDataEntry.Read v d) : Has d [0] [1] :=
  rSeq_comps (R := [0]) (O := [1]) (rThen_comps (rReq_comps (by decide)) (rOpt_comps (by decide))) h

theorem EncryptedData_read_without (v : EncryptedData) (d : Der) (h : EncryptedData.Read v d) (gone : Nat → Bool)
    (hk : ∀ n, n ∉ ([1] : List Nat) → gone n = false) (w : WireForm) :
    ∃ v', EncryptedData.Read v' (d.without gone) ∧ EncryptedData.der w v' = (EncryptedData.der w v).without gone := by
  refine ⟨{ v with kvno := drop gone 1 v.kvno }, ?_, ?_⟩
  · exact rSeq_without
      (rThen_leave (rReq_leave (by decide) (hk 0 (by decide)))
      (rThen_leave (rOpt_leave (by decide))
      (rReq_leave (by decide) (hk 2 (by decide))))) h
  · simp only [EncryptedData.der]
    rw [node_without_seq]
    simp only [leave_append, leave_req (by decide) (hk 0 (by decide)), leave_opt (n := 1) (by decide), leave_req (by decide) (hk 2 (by decide))]

theorem AsRep_read_without (v : AsRep) (d : Der) (h : AsRep.Read v d) (gone : Nat → Bool)
    (hk : ∀ n, n ∉ ([2] : List Nat) → gone n = false) (w : WireForm) :
    ∃ v', AsRep.Read v' (d.without gone) ∧ AsRep.der w v' = (AsRep.der w v).without gone := by
  refine ⟨{ v with padata := drop gone 2 v.padata }, ?_, ?_⟩
  · exact rApp_without (by decide)
      (rThen_leave (rReq_leave (by decide) (hk 0 (by decide)))
      (rThen_leave (rReq_leave (by decide) (hk 1 (by decide)))
      (rThen_leave (rOpt_leave (by decide))
      (rThen_leave (rReq_leave (by decide) (hk 3 (by decide)))
      (rThen_leave (rReq_leave (by decide) (hk 4 (by decide)))
      (rThen_leave (rReq_leave (by decide) (hk 5 (by decide)))
      (rReq_leave (by decide) (hk 6 (by decide))))))))) h
  · simp only [AsRep.der]
    rw [node_without_app (by decide)]
    simp only [leave_append, leave_req (by decide) (hk 0 (by decide)), leave_req (by decide) (hk 1 (by decide)), leave_opt (n := 2) (by decide), leave_req (by decide) (hk 3 (by decide)), leave_req (by decide) (hk 4 (by decide)), leave_req (by decide) (hk 5 (by decide)), leave_req (by decide) (hk 6 (by decide))]

theorem KdcReqBody_read_without (v : KdcReqBody) (d : Der) (h : KdcReqBody.Read v d) (gone : Nat → Bool)
    (hk : ∀ n, n ∉ ([1, 3, 4, 6, 9, 10, 11] : List Nat) → gone n = false) (w : WireForm) :
    ∃ v', KdcReqBody.Read v' (d.without gone) ∧ KdcReqBody.der w v' = (KdcReqBody.der w v).without gone := by
  refine ⟨{ v with cname := drop gone 1 v.cname, sname := drop gone 3 v.sname, «from» := drop gone 4 v.«from», rtime := drop gone 6 v.rtime, addresses := drop gone 9 v.addresses, enc_authorization_data := drop gone 10 v.enc_authorization_data, additional_tickets := drop gone 11 v.additional_tickets }, ?_, ?_⟩
  · exact rSeq_without
      (rThen_leave (rReq_leave (by decide) (hk 0 (by decide)))
      (rThen_leave (rOpt_leave (by decide))
      (rThen_leave (rReq_leave (by decide) (hk 2 (by decide)))
      (rThen_leave (rOpt_leave (by decide))
      (rThen_leave (rOpt_leave (by decide))
      (rThen_leave (rReq_leave (by decide) (hk 5 (by decide)))
      (rThen_leave (rOpt_leave (by decide))
      (rThen_leave (rReq_leave (by decide) (hk 7 (by decide)))
      (rThen_leave (rReq_leave (by decide) (hk 8 (by decide)))
      (rThen_leave (rOpt_leave (by decide))
      (rThen_leave (rOpt_leave (by decide))
      (rOpt_leave (by decide))))))))))))) h
  · simp only [KdcReqBody.der]
    rw [node_without_seq]
    simp only [leave_append, leave_req (by decide) (hk 0 (by decide)), leave_opt (n := 1) (by decide), leave_req (by decide) (hk 2 (by decide)), leave_opt (n := 3) (by decide), leave_opt (n := 4) (by decide), leave_req (by decide) (hk 5 (by decide)), leave_opt (n := 6) (by decide), leave_req (by decide) (hk 7 (by decide)), leave_req (by decide) (hk 8 (by decide)), leave_opt (n := 9) (by decide), leave_opt (n := 10) (by decide), leave_opt (n := 11) (by decide)]

theorem AsReq_read_without (v : AsReq) (d : Der) (h : AsReq.Read v d) (gone : Nat → Bool)
    (hk : ∀ n, n ∉ ([3] : List Nat) → gone n = false) (w : WireForm) :
    ∃ v', AsReq.Read v' (d.without gone) ∧ AsReq.der w v' = (AsReq.der w v).without gone := by
  refine ⟨{ v with padata := drop gone 3 v.padata }, ?_, ?_⟩
  · exact rApp_without (by decide)
      (rThen_leave (rReq_leave (by decide) (hk 1 (by decide)))
      (rThen_leave (rReq_leave (by decide) (hk 2 (by decide)))
      (rThen_leave (rOpt_leave (by decide))
      (rReq_leave (by decide) (hk 4 (by decide)))))) h
  · simp only [AsReq.der]
    rw [node_without_app (by decide)]
    simp only [leave_append, leave_req (by decide) (hk 1 (by decide)), leave_req (by decide) (hk 2 (by decide)), leave_opt (n := 3) (by decide), leave_req (by decide) (hk 4 (by decide))]

theorem Authenticator_read_without (v : Authenticator) (d : Der) (h : Authenticator.Read v d) (gone : Nat → Bool)
    (hk : ∀ n, n ∉ ([3, 6, 7, 8] : List Nat) → gone n = false) (w : WireForm) :
    ∃ v', Authenticator.Read v' (d.without gone) ∧ Authenticator.der w v' = (Authenticator.der w v).without gone := by
  refine ⟨{ v with cksum := drop gone 3 v.cksum, subkey := drop gone 6 v.subkey, seq_number := drop gone 7 v.seq_number, authorization_data := drop gone 8 v.authorization_data }, ?_, ?_⟩
  · exact rApp_without (by decide)
      (rThen_leave (rReq_leave (by decide) (hk 0 (by decide)))
      (rThen_leave (rReq_leave (by decide) (hk 1 (by decide)))
      (rThen_leave (rReq_leave (by decide) (hk 2 (by decide)))
      (rThen_leave (rOpt_leave (by decide))
      (rThen_leave (rReq_leave (by decide) (hk 4 (by decide)))
      (rThen_leave (rReq_leave (by decide) (hk 5 (by decide)))
      (rThen_leave (rOpt_leave (by decide))
      (rThen_leave (rOpt_leave (by decide))
      (rOpt_leave (by decide)))))))))) h
  · simp only [Authenticator.der]
    rw [node_without_app (by decide)]
    simp only [leave_append, leave_req (by decide) (hk 0 (by decide)), leave_req (by decide) (hk 1 (by decide)), leave_req (by decide) (hk 2 (by decide)), leave_opt (n := 3) (by decide), leave_req (by decide) (hk 4 (by decide)), leave_req (by decide) (hk 5 (by decide)), leave_opt (n := 6) (by decide), leave_opt (n := 7) (by decide), leave_opt (n := 8) (by decide)]

theorem EncAsRepPart_read_without (v : EncAsRepPart) (d : Der) (h : EncAsRepPart.Read v d) (gone : Nat → Bool)
    (hk : ∀ n, n ∉ ([3, 6, 8, 11, 12] : List Nat) → gone n = false) (w : WireForm) :
    ∃ v', EncAsRepPart.Read v' (d.without gone) ∧ EncAsRepPart.der w v' = (EncAsRepPart.der w v).without gone := by
  refine ⟨{ v with key_expiration := drop gone 3 v.key_expiration, starttime := drop gone 6 v.starttime, renew_till := drop gone 8 v.renew_till, caddr := drop gone 11 v.caddr, encrypted_pa_data := drop gone 12 v.encrypted_pa_data }, ?_, ?_⟩
  · exact rApp_without (by decide)
      (rThen_leave (rReq_leave (by decide) (hk 0 (by decide)))
      (rThen_leave (rReq_leave (by decide) (hk 1 (by decide)))
      (rThen_leave (rReq_leave (by decide) (hk 2 (by decide)))
      (rThen_leave (rOpt_leave (by decide))
      (rThen_leave (rReq_leave (by decide) (hk 4 (by decide)))
      (rThen_leave (rReq_leave (by decide) (hk 5 (by decide)))
      (rThen_leave (rOpt_leave (by decide))
      (rThen_leave (rReq_leave (by decide) (hk 7 (by decide)))
      (rThen_leave (rOpt_leave (by decide))
      (rThen_leave (rReq_leave (by decide) (hk 9 (by decide)))
      (rThen_leave (rReq_leave (by decide) (hk 10 (by decide)))
      (rThen_leave (rOpt_leave (by decide))
      (rOpt_leave (by decide)))))))))))))) h
  · simp only [EncAsRepPart.der]
    rw [node_without_app (by decide)]
    simp only [leave_append, leave_req (by decide) (hk 0 (by decide)), leave_req (by decide) (hk 1 (by decide)), leave_req (by decide) (hk 2 (by decide)), leave_opt (n := 3) (by decide), leave_req (by decide) (hk 4 (by decide)), leave_req (by decide) (hk 5 (by decide)), leave_opt (n := 6) (by decide), leave_req (by decide) (hk 7 (by decide)), leave_opt (n := 8) (by decide), leave_req (by decide) (hk 9 (by decide)), leave_req (by decide) (hk 10 (by decide)), leave_opt (n := 11) (by decide), leave_opt (n := 12) (by decide)]

theorem EncKdcRepPart_read_without (v : EncKdcRepPart) (d : Der) (h : EncKdcRepPart.Read v d) (gone : Nat → Bool)
    (hk : ∀ n, n ∉ ([3, 6, 8, 11, 12] : List Nat) → gone n = false) (w : WireForm) :
    ∃ v', EncKdcRepPart.Read v' (d.without gone) ∧ EncKdcRepPart.der w v' = (EncKdcRepPart.der w v).without gone := by
  refine ⟨{ v with key_expiration := drop gone 3 v.key_expiration, starttime := drop gone 6 v.starttime, renew_till := drop gone 8 v.renew_till, caddr := drop gone 11 v.caddr, encrypted_pa_data := drop gone 12 v.encrypted_pa_data }, ?_, ?_⟩
  · exact rSeq_without
      (rThen_leave (rReq_leave (by decide) (hk 0 (by decide)))
      (rThen_leave (rReq_leave (by decide) (hk 1 (by decide)))
      (rThen_leave (rReq_leave (by decide) (hk 2 (by decide)))
      (rThen_leave (rOpt_leave (by decide))
      (rThen_leave (rReq_leave (by decide) (hk 4 (by decide)))
      (rThen_leave (rReq_leave (by decide) (hk 5 (by decide)))
      (rThen_leave (rOpt_leave (by decide))
      (rThen_leave (rReq_leave (by decide) (hk 7 (by decide)))
      (rThen_leave (rOpt_leave (by decide))
      (rThen_leave (rReq_leave (by decide) (hk 9 (by decide)))
      (rThen_leave (rReq_leave (by decide) (hk 10 (by decide)))
      (rThen_leave (rOpt_leave (by decide))
      (rOpt_leave (by decide)))))))))))))) h
  · simp only [EncKdcRepPart.der]
    rw [node_without_seq]
    simp only [leave_append, leave_req (by decide) (hk 0 (by decide)), leave_req (by decide) (hk 1 (by decide)), leave_req (by decide) (hk 2 (by decide)), leave_opt (n := 3) (by decide), leave_req (by decide) (hk 4 (by decide)), leave_req (by decide) (hk 5 (by decide)), leave_opt (n := 6) (by decide), leave_req (by decide) (hk 7 (by decide)), leave_opt (n := 8) (by decide), leave_req (by decide) (hk 9 (by decide)), leave_req (by decide) (hk 10 (by decide)), leave_opt (n := 11) (by decide), leave_opt (n := 12) (by decide)]

theorem KrbCredInfo_read_without (v : KrbCredInfo) (d : Der) (h : KrbCredInfo.Read v d) (gone : Nat → Bool)
    (hk : ∀ n, n ∉ ([1, 2, 3, 4, 5, 6, 7, 8, 9, 10] : List Nat) → gone n = false) (w : WireForm) :
    ∃ v', KrbCredInfo.Read v' (d.without gone) ∧ KrbCredInfo.der w v' = (KrbCredInfo.der w v).without gone := by
  refine ⟨{ v with prealm := drop gone 1 v.prealm, pname := drop gone 2 v.pname, flags := drop gone 3 v.flags, authtime := drop gone 4 v.authtime, starttime := drop gone 5 v.starttime, endtime := drop gone 6 v.endtime, renew_till := drop gone 7 v.renew_till, srealm := drop gone 8 v.srealm, sname := drop gone 9 v.sname, caddr := drop gone 10 v.caddr }, ?_, ?_⟩
  · exact rSeq_without
      (rThen_leave (rReq_leave (by decide) (hk 0 (by decide)))
      (rThen_leave (rOpt_leave (by decide))
      (rThen_leave (rOpt_leave (by decide))
      (rThen_leave (rOpt_leave (by decide))
      (rThen_leave (rOpt_leave (by decide))
      (rThen_leave (rOpt_leave (by decide))
      (rThen_leave (rOpt_leave (by decide))
      (rThen_leave (rOpt_leave (by decide))
      (rThen_leave (rOpt_leave (by decide))
      (rThen_leave (rOpt_leave (by decide))
      (rOpt_leave (by decide)))))))))))) h
  · simp only [KrbCredInfo.der]
    rw [node_without_seq]
    simp only [leave_append, leave_req (by decide) (hk 0 (by decide)), leave_opt (n := 1) (by decide), leave_opt (n := 2) (by decide), leave_opt (n := 3) (by decide), leave_opt (n := 4) (by decide), leave_opt (n := 5) (by decide), leave_opt (n := 6) (by decide), leave_opt (n := 7) (by decide), leave_opt (n := 8) (by decide), leave_opt (n := 9) (by decide), leave_opt (n := 10) (by decide)]

theorem EncKrbCredPart_read_without (v : EncKrbCredPart) (d : Der) (h : EncKrbCredPart.Read v d) (gone : Nat → Bool)
    (hk : ∀ n, n ∉ ([1, 2, 3, 4, 5] : List Nat) → gone n = false) (w : WireForm) :
    ∃ v', EncKrbCredPart.Read v' (d.without gone) ∧ EncKrbCredPart.der w v' = (EncKrbCredPart.der w v).without gone := by
  refine ⟨{ v with nonce := drop gone 1 v.nonce, timestamp := drop gone 2 v.timestamp, usec := drop gone 3 v.usec, s_address := drop gone 4 v.s_address, r_address := drop gone 5 v.r_address }, ?_, ?_⟩
  · exact rApp_without (by decide)
      (rThen_leave (rReq_leave (by decide) (hk 0 (by decide)))
      (rThen_leave (rOpt_leave (by decide))
      (rThen_leave (rOpt_leave (by decide))
      (rThen_leave (rOpt_leave (by decide))
      (rThen_leave (rOpt_leave (by decide))
      (rOpt_leave (by decide))))))) h
  · simp only [EncKrbCredPart.der]
    rw [node_without_app (by decide)]
    simp only [leave_append, leave_req (by decide) (hk 0 (by decide)), leave_opt (n := 1) (by decide), leave_opt (n := 2) (by decide), leave_opt (n := 3) (by decide), leave_opt (n := 4) (by decide), leave_opt (n := 5) (by decide)]

theorem EncKrbPrivPart_read_without (v : EncKrbPrivPart) (d : Der) (h : EncKrbPrivPart.Read v d) (gone : Nat → Bool)
    (hk : ∀ n, n ∉ ([1, 2, 3, 5] : List Nat) → gone n = false) (w : WireForm) :
    ∃ v', EncKrbPrivPart.Read v' (d.without gone) ∧ EncKrbPrivPart.der w v' = (EncKrbPrivPart.der w v).without gone := by
  refine ⟨{ v with timestamp := drop gone 1 v.timestamp, usec := drop gone 2 v.usec, seq_number := drop gone 3 v.seq_number, r_address := drop gone 5 v.r_address }, ?_, ?_⟩
  · exact rApp_without (by decide)
      (rThen_leave (rReq_leave (by decide) (hk 0 (by decide)))
      (rThen_leave (rOpt_leave (by decide))
      (rThen_leave (rOpt_leave (by decide))
      (rThen_leave (rOpt_leave (by decide))
      (rThen_leave (rReq_leave (by decide) (hk 4 (by decide)))
      (rOpt_leave (by decide))))))) h
  · simp only [EncKrbPrivPart.der]
    rw [node_without_app (by decide)]
    simp only [leave_append, leave_req (by decide) (hk 0 (by decide)), leave_opt (n := 1) (by decide), leave_opt (n := 2) (by decide), leave_opt (n := 3) (by decide), leave_req (by decide) (hk 4 (by decide)), leave_opt (n := 5) (by decide)]

theorem EncTgsRepPart_read_without (v : EncTgsRepPart) (d : Der) (h : EncTgsRepPart.Read v d) (gone : Nat → Bool)
    (hk : ∀ n, n ∉ ([3, 6, 8, 11, 12] : List Nat) → gone n = false) (w : WireForm) :
    ∃ v', EncTgsRepPart.Read v' (d.without gone) ∧ EncTgsRepPart.der w v' = (EncTgsRepPart.der w v).without gone := by
  refine ⟨{ v with key_expiration := drop gone 3 v.key_expiration, starttime := drop gone 6 v.starttime, renew_till := drop gone 8 v.renew_till, caddr := drop gone 11 v.caddr, encrypted_pa_data := drop gone 12 v.encrypted_pa_data }, ?_, ?_⟩
  · exact rApp_without (by decide)
      (rThen_leave (rReq_leave (by decide) (hk 0 (by decide)))
      (rThen_leave (rReq_leave (by decide) (hk 1 (by decide)))
      (rThen_leave (rReq_leave (by decide) (hk 2 (by decide)))
      (rThen_leave (rOpt_leave (by decide))
      (rThen_leave (rReq_leave (by decide) (hk 4 (by decide)))
      (rThen_leave (rReq_leave (by decide) (hk 5 (by decide)))
      (rThen_leave (rOpt_leave (by decide))
      (rThen_leave (rReq_leave (by decide) (hk 7 (by decide)))
      (rThen_leave (rOpt_leave (by decide))
      (rThen_leave (rReq_leave (by decide) (hk 9 (by decide)))
      (rThen_leave (rReq_leave (by decide) (hk 10 (by decide)))
      (rThen_leave (rOpt_leave (by decide))
      (rOpt_leave (by decide)))))))))))))) h
  · simp only [EncTgsRepPart.der]
    rw [node_without_app (by decide)]
    simp only [leave_append, leave_req (by decide) (hk 0 (by decide)), leave_req (by decide) (hk 1 (by decide)), leave_req (by decide) (hk 2 (by decide)), leave_opt (n := 3) (by decide), leave_req (by decide) (hk 4 (by decide)), leave_req (by decide) (hk 5 (by decide)), leave_opt (n := 6) (by decide), leave_req (by decide) (hk 7 (by decide)), leave_opt (n := 8) (by decide), leave_req (by decide) (hk 9 (by decide)), leave_req (by decide) (hk 10 (by decide)), leave_opt (n := 11) (by decide), leave_opt (n := 12) (by decide)]

theorem EncTicketPart_read_without (v : EncTicketPart) (d : Der) (h : EncTicketPart.Read v d) (gone : Nat → Bool)
    (hk : ∀ n, n ∉ ([6, 8, 9, 10] : List Nat) → gone n = false) (w : WireForm) :
    ∃ v', EncTicketPart.Read v' (d.without gone) ∧ EncTicketPart.der w v' = (EncTicketPart.der w v).without gone := by
  refine ⟨{ v with starttime := drop gone 6 v.starttime, renew_till := drop gone 8 v.renew_till, caddr := drop gone 9 v.caddr, authorization_data := drop gone 10 v.authorization_data }, ?_, ?_⟩
  · exact rApp_without (by decide)
      (rThen_leave (rReq_leave (by decide) (hk 0 (by decide)))
      (rThen_leave (rReq_leave (by decide) (hk 1 (by decide)))
      (rThen_leave (rReq_leave (by decide) (hk 2 (by decide)))
      (rThen_leave (rReq_leave (by decide) (hk 3 (by decide)))
      (rThen_leave (rReq_leave (by decide) (hk 4 (by decide)))
      (rThen_leave (rReq_leave (by decide) (hk 5 (by decide)))
      (rThen_leave (rOpt_leave (by decide))
      (rThen_leave (rReq_leave (by decide) (hk 7 (by decide)))
      (rThen_leave (rOpt_leave (by decide))
      (rThen_leave (rOpt_leave (by decide))
      (rOpt_leave (by decide)))))))))))) h
  · simp only [EncTicketPart.der]
    rw [node_without_app (by decide)]
    simp only [leave_append, leave_req (by decide) (hk 0 (by decide)), leave_req (by decide) (hk 1 (by decide)), leave_req (by decide) (hk 2 (by decide)), leave_req (by decide) (hk 3 (by decide)), leave_req (by decide) (hk 4 (by decide)), leave_req (by decide) (hk 5 (by decide)), leave_opt (n := 6) (by decide), leave_req (by decide) (hk 7 (by decide)), leave_opt (n := 8) (by decide), leave_opt (n := 9) (by decide), leave_opt (n := 10) (by decide)]

theorem KdcReq_read_without (v : KdcReq) (d : Der) (h : KdcReq.Read v d) (gone : Nat → Bool)
    (hk : ∀ n, n ∉ ([3] : List Nat) → gone n = false) (w : WireForm) :
    ∃ v', KdcReq.Read v' (d.without gone) ∧ KdcReq.der w v' = (KdcReq.der w v).without gone := by
  refine ⟨{ v with padata := drop gone 3 v.padata }, ?_, ?_⟩
  · exact rSeq_without
      (rThen_leave (rReq_leave (by decide) (hk 1 (by decide)))
      (rThen_leave (rReq_leave (by decide) (hk 2 (by decide)))
      (rThen_leave (rOpt_leave (by decide))
      (rReq_leave (by decide) (hk 4 (by decide)))))) h
  · simp only [KdcReq.der]
    rw [node_without_seq]
    simp only [leave_append, leave_req (by decide) (hk 1 (by decide)), leave_req (by decide) (hk 2 (by decide)), leave_opt (n := 3) (by decide), leave_req (by decide) (hk 4 (by decide))]

theorem KerbErrorData_read_without (v : KerbErrorData) (d : Der) (h : KerbErrorData.Read v d) (gone : Nat → Bool)
    (hk : ∀ n, n ∉ ([2] : List Nat) → gone n = false) :
    ∃ v', KerbErrorData.Read v' (d.without gone) ∧ KerbErrorData.der  v' = (KerbErrorData.der  v).without gone := by
  refine ⟨{ v with data_value := drop gone 2 v.data_value }, ?_, ?_⟩
  · exact rSeq_without
      (rThen_leave (rReq_leave (by decide) (hk 1 (by decide)))
      (rOpt_leave (by decide))) h
  · simp only [KerbErrorData.der]
    rw [node_without_seq]
    simp only [leave_append, leave_req (by decide) (hk 1 (by decide)), leave_opt (n := 2) (by decide)]

theorem KrbError_read_without (v : KrbError) (d : Der) (h : KrbError.Read v d) (gone : Nat → Bool)
    (hk : ∀ n, n ∉ ([2, 3, 7, 8, 11, 12] : List Nat) → gone n = false) (w : WireForm) :
    ∃ v', KrbError.Read v' (d.without gone) ∧ KrbError.der w v' = (KrbError.der w v).without gone := by
  refine ⟨{ v with ctime := drop gone 2 v.ctime, cusec := drop gone 3 v.cusec, crealm := drop gone 7 v.crealm, cname := drop gone 8 v.cname, e_text := drop gone 11 v.e_text, e_data := drop gone 12 v.e_data }, ?_, ?_⟩
  · exact rApp_without (by decide)
      (rThen_leave (rReq_leave (by decide) (hk 0 (by decide)))
      (rThen_leave (rReq_leave (by decide) (hk 1 (by decide)))
      (rThen_leave (rOpt_leave (by decide))
      (rThen_leave (rOpt_leave (by decide))
      (rThen_leave (rReq_leave (by decide) (hk 4 (by decide)))
      (rThen_leave (rReq_leave (by decide) (hk 5 (by decide)))
      (rThen_leave (rReq_leave (by decide) (hk 6 (by decide)))
      (rThen_leave (rOpt_leave (by decide))
      (rThen_leave (rOpt_leave (by decide))
      (rThen_leave (rReq_leave (by decide) (hk 9 (by decide)))
      (rThen_leave (rReq_leave (by decide) (hk 10 (by decide)))
      (rThen_leave (rOpt_leave (by decide))
      (rOpt_leave (by decide)))))))))))))) h
  · simp only [KrbError.der]
    rw [node_without_app (by decide)]
    simp only [leave_append, leave_req (by decide) (hk 0 (by decide)), leave_req (by decide) (hk 1 (by decide)), leave_opt (n := 2) (by decide), leave_opt (n := 3) (by decide), leave_req (by decide) (hk 4 (by decide)), leave_req (by decide) (hk 5 (by decide)), leave_req (by decide) (hk 6 (by decide)), leave_opt (n := 7) (by decide), leave_opt (n := 8) (by decide), leave_req (by decide) (hk 9 (by decide)), leave_req (by decide) (hk 10 (by decide)), leave_opt (n := 11) (by decide), leave_opt (n := 12) (by decide)]

theorem KrbSafeBody_read_without (v : KrbSafeBody) (d : Der) (h : KrbSafeBody.Read v d) (gone : Nat → Bool)
    (hk : ∀ n, n ∉ ([1, 2, 3, 5] : List Nat) → gone n = false) (w : WireForm) :
    ∃ v', KrbSafeBody.Read v' (d.without gone) ∧ KrbSafeBody.der w v' = (KrbSafeBody.der w v).without gone := by
  refine ⟨{ v with timestamp := drop gone 1 v.timestamp, usec := drop gone 2 v.usec, seq_number := drop gone 3 v.seq_number, r_address := drop gone 5 v.r_address }, ?_, ?_⟩
  · exact rSeq_without
      (rThen_leave (rReq_leave (by decide) (hk 0 (by decide)))
      (rThen_leave (rOpt_leave (by decide))
      (rThen_leave (rOpt_leave (by decide))
      (rThen_leave (rOpt_leave (by decide))
      (rThen_leave (rReq_leave (by decide) (hk 4 (by decide)))
      (rOpt_leave (by decide))))))) h
  · simp only [KrbSafeBody.der]
    rw [node_without_seq]
    simp only [leave_append, leave_req (by decide) (hk 0 (by decide)), leave_opt (n := 1) (by decide), leave_opt (n := 2) (by decide), leave_opt (n := 3) (by decide), leave_req (by decide) (hk 4 (by decide)), leave_opt (n := 5) (by decide)]

theorem AdKdcIssued_read_without (v : AdKdcIssued) (d : Der) (h : AdKdcIssued.Read v d) (gone : Nat → Bool)
    (hk : ∀ n, n ∉ ([1, 2] : List Nat) → gone n = false) :
    ∃ v', AdKdcIssued.Read v' (d.without gone) ∧ AdKdcIssued.der  v' = (AdKdcIssued.der  v).without gone := by
  refine ⟨{ v with i_realm := drop gone 1 v.i_realm, i_sname := drop gone 2 v.i_sname }, ?_, ?_⟩
  · exact rSeq_without
      (rThen_leave (rReq_leave (by decide) (hk 0 (by decide)))
      (rThen_leave (rOpt_leave (by decide))
      (rThen_leave (rOpt_leave (by decide))
      (rReq_leave (by decide) (hk 3 (by decide)))))) h
  · simp only [AdKdcIssued.der]
    rw [node_without_seq]
    simp only [leave_append, leave_req (by decide) (hk 0 (by decide)), leave_opt (n := 1) (by decide), leave_opt (n := 2) (by decide), leave_req (by decide) (hk 3 (by decide))]

theorem EtypeInfo2Entry_read_without (v : EtypeInfo2Entry) (d : Der) (h : EtypeInfo2Entry.Read v d) (gone : Nat → Bool)
    (hk : ∀ n, n ∉ ([1, 2] : List Nat) → gone n = false) :
    ∃ v', EtypeInfo2Entry.Read v' (d.without gone) ∧ EtypeInfo2Entry.der  v' = (EtypeInfo2Entry.der  v).without gone := by
  refine ⟨{ v with salt := drop gone 1 v.salt, s2kparams := drop gone 2 v.s2kparams }, ?_, ?_⟩
  · exact rSeq_without
      (rThen_leave (rReq_leave (by decide) (hk 0 (by decide)))
      (rThen_leave (rOpt_leave (by decide))
      (rOpt_leave (by decide)))) h
  · simp only [EtypeInfo2Entry.der]
    rw [node_without_seq]
    simp only [leave_append, leave_req (by decide) (hk 0 (by decide)), leave_opt (n := 1) (by decide), leave_opt (n := 2) (by decide)]

theorem EtypeInfoEntry_read_without (v : EtypeInfoEntry) (d : Der) (h : EtypeInfoEntry.Read v d) (gone : Nat → Bool)
    (hk : ∀ n, n ∉ ([1] : List Nat) → gone n = false) :
    ∃ v', EtypeInfoEntry.Read v' (d.without gone) ∧ EtypeInfoEntry.der  v' = (EtypeInfoEntry.der  v).without gone := by
  refine ⟨{ v with salt := drop gone 1 v.salt }, ?_, ?_⟩
  · exact rSeq_without
      (rThen_leave (rReq_leave (by decide) (hk 0 (by decide)))
      (rOpt_leave (by decide))) h
  · simp only [EtypeInfoEntry.der]
    rw [node_without_seq]
    simp only [leave_append, leave_req (by decide) (hk 0 (by decide)), leave_opt (n := 1) (by decide)]

theorem PaEncTsEnc_read_without (v : PaEncTsEnc) (d : Der) (h : PaEncTsEnc.Read v d) (gone : Nat → Bool)
    (hk : ∀ n, n ∉ ([1] : List Nat) → gone n = false) (w : WireForm) :
    ∃ v', PaEncTsEnc.Read v' (d.without gone) ∧ PaEncTsEnc.der w v' = (PaEncTsEnc.der w v).without gone := by
  refine ⟨{ v with pausec := drop gone 1 v.pausec }, ?_, ?_⟩
  · exact rSeq_without
      (rThen_leave (rReq_leave (by decide) (hk 0 (by decide)))
      (rOpt_leave (by decide))) h
  · simp only [PaEncTsEnc.der]
    rw [node_without_seq]
    simp only [leave_append, leave_req (by decide) (hk 0 (by decide)), leave_opt (n := 1) (by decide)]

theorem S4uUserId_read_without (v : S4uUserId) (d : Der) (h : S4uUserId.Read v d) (gone : Nat → Bool)
    (hk : ∀ n, n ∉ ([1, 3, 4] : List Nat) → gone n = false) (w : WireForm) :
    ∃ v', S4uUserId.Read v' (d.without gone) ∧ S4uUserId.der w v' = (S4uUserId.der w v).without gone := by
  refine ⟨{ v with cname := drop gone 1 v.cname, subject_certificate := drop gone 3 v.subject_certificate, options := drop gone 4 v.options }, ?_, ?_⟩
  · exact rSeq_without
      (rThen_leave (rReq_leave (by decide) (hk 0 (by decide)))
      (rThen_leave (rOpt_leave (by decide))
      (rThen_leave (rReq_leave (by decide) (hk 2 (by decide)))
      (rThen_leave (rOpt_leave (by decide))
      (rOpt_leave (by decide)))))) h
  · simp only [S4uUserId.der]
    rw [node_without_seq]
    simp only [leave_append, leave_req (by decide) (hk 0 (by decide)), leave_opt (n := 1) (by decide), leave_req (by decide) (hk 2 (by decide)), leave_opt (n := 3) (by decide), leave_opt (n := 4) (by decide)]

theorem TgsRep_read_without (v : TgsRep) (d : Der) (h : TgsRep.Read v d) (gone : Nat → Bool)
    (hk : ∀ n, n ∉ ([2] : List Nat) → gone n = false) (w : WireForm) :
    ∃ v', TgsRep.Read v' (d.without gone) ∧ TgsRep.der w v' = (TgsRep.der w v).without gone := by
  refine ⟨{ v with padata := drop gone 2 v.padata }, ?_, ?_⟩
  · exact rApp_without (by decide)
      (rThen_leave (rReq_leave (by decide) (hk 0 (by decide)))
      (rThen_leave (rReq_leave (by decide) (hk 1 (by decide)))
      (rThen_leave (rOpt_leave (by decide))
      (rThen_leave (rReq_leave (by decide) (hk 3 (by decide)))
      (rThen_leave (rReq_leave (by decide) (hk 4 (by decide)))
      (rThen_leave (rReq_leave (by decide) (hk 5 (by decide)))
      (rReq_leave (by decide) (hk 6 (by decide))))))))) h
  · simp only [TgsRep.der]
    rw [node_without_app (by decide)]
    simp only [leave_append, leave_req (by decide) (hk 0 (by decide)), leave_req (by decide) (hk 1 (by decide)), leave_opt (n := 2) (by decide), leave_req (by decide) (hk 3 (by decide)), leave_req (by decide) (hk 4 (by decide)), leave_req (by decide) (hk 5 (by decide)), leave_req (by decide) (hk 6 (by decide))]

theorem TgsReq_read_without (v : TgsReq) (d : Der) (h : TgsReq.Read v d) (gone : Nat → Bool)
    (hk : ∀ n, n ∉ ([3] : List Nat) → gone n = false) (w : WireForm) :
    ∃ v', TgsReq.Read v' (d.without gone) ∧ TgsReq.der w v' = (TgsReq.der w v).without gone := by
  refine ⟨{ v with padata := drop gone 3 v.padata }, ?_, ?_⟩
  · exact rApp_without (by decide)
      (rThen_leave (rReq_leave (by decide) (hk 1 (by decide)))
      (rThen_leave (rReq_leave (by decide) (hk 2 (by decide)))
      (rThen_leave (rOpt_leave (by decide))
      (rReq_leave (by decide) (hk 4 (by decide)))))) h
  · simp only [TgsReq.der]
    rw [node_without_app (by decide)]
    simp only [leave_append, leave_req (by decide) (hk 1 (by decide)), leave_req (by decide) (hk 2 (by decide)), leave_opt (n := 3) (by decide), leave_req (by decide) (hk 4 (by decide))]

theorem TypedDataEntry_read_without (v : TypedDataEntry) (d : Der) (h : TypedDataEntry.Read v d) (gone : Nat → Bool)
    (hk : ∀ n, n ∉ ([1] : List Nat) → gone n = false) :
    ∃ v', TypedDataEntry.Read v' (d.without gone) ∧ TypedDataEntry.der  v' = (TypedDataEntry.der  v).without gone := by
  refine ⟨{ v with data_value := drop gone 1 v.data_value }, ?_, ?_⟩
  · exact rSeq_without
      (rThen_leave (rReq_leave (by decide) (hk 0 (by decide)))
      (rOpt_leave (by decide))) h
  · simp only [TypedDataEntry.der]
    rw [node_without_seq]
    simp only [leave_append, leave_req (by decide) (hk 0 (by decide)), leave_opt (n := 1) (by decide)]

theorem MsgType.read_tagged : (T : MsgType) → TagsOk T.Read
  | .encryptedData => EncryptedData_read_tagged
  | .apRep => ApRep_read_tagged
  | .principalName => PrincipalName_read_tagged
  | .ticket => Ticket_read_tagged
  | .apReq => ApReq_read_tagged
  | .paData => PaData_read_tagged
  | .asRep => AsRep_read_tagged
  | .hostAddress => HostAddress_read_tagged
  | .kdcReqBody => KdcReqBody_read_tagged
  | .asReq => AsReq_read_tagged
  | .checksum => Checksum_read_tagged
  | .encryptionKey => EncryptionKey_read_tagged
  | .authorizationDataEntry => AuthorizationDataEntry_read_tagged
  | .authenticator => Authenticator_read_tagged
  | .encApRepPart => EncApRepPart_read_tagged
  | .lastReqEntry => LastReqEntry_read_tagged
  | .encAsRepPart => EncAsRepPart_read_tagged
  | .encKdcRepPart => EncKdcRepPart_read_tagged
  | .krbCredInfo => KrbCredInfo_read_tagged
  | .encKrbCredPart => EncKrbCredPart_read_tagged
  | .encKrbPrivPart => EncKrbPrivPart_read_tagged
  | .encTgsRepPart => EncTgsRepPart_read_tagged
  | .transitedEncoding => TransitedEncoding_read_tagged
  | .encTicketPart => EncTicketPart_read_tagged
  | .kdcReq => KdcReq_read_tagged
  | .kerbAdRestrictionEntry => KerbAdRestrictionEntry_read_tagged
  | .kerbErrorData => KerbErrorData_read_tagged
  | .krbCred => KrbCred_read_tagged
  | .krbError => KrbError_read_tagged
  | .krbPriv => KrbPriv_read_tagged
  | .krbSafeBody => KrbSafeBody_read_tagged
  | .krbSafe => KrbSafe_read_tagged
  | .adAndOr => AdAndOr_read_tagged
  | .adKdcIssued => AdKdcIssued_read_tagged
  | .etypeInfo2Entry => EtypeInfo2Entry_read_tagged
  | .etypeInfoEntry => EtypeInfoEntry_read_tagged
  | .kerbPaPacRequest => KerbPaPacRequest_read_tagged
  | .paEncTsEnc => PaEncTsEnc_read_tagged
  | .paForUser => PaForUser_read_tagged
  | .paPacOptions => PaPacOptions_read_tagged
  | .s4uUserId => S4uUserId_read_tagged
  | .paS4uX509User => PaS4uX509User_read_tagged
  | .tgsRep => TgsRep_read_tagged
  | .tgsReq => TgsReq_read_tagged
  | .typedDataEntry => TypedDataEntry_read_tagged
  | .hostAddresses => rSeqOf_tagged HostAddress_read_tagged
  | .authorizationData => rSeqOf_tagged AuthorizationDataEntry_read_tagged
  | .lastReq => rSeqOf_tagged LastReqEntry_read_tagged
  | .typedData => rSeqOf_tagged TypedDataEntry_read_tagged
  | .etypeInfo => rSeqOf_tagged EtypeInfoEntry_read_tagged
  | .etypeInfo2 => rSeqOf_tagged EtypeInfo2Entry_read_tagged
  | .methodData => rSeqOf_tagged PaData_read_tagged
  | .kerbKeyListRep => rSeqOf_tagged EncryptionKey_read_tagged
  | .kerbKeyListReq => rSeqOf_tagged rInt32_tagged
  | .kerbLocal => rOctets_tagged
  | .realm => rString_tagged
  | .int32 => rInt32_tagged
  | .kerberosFlags => rFlags_tagged
  | .kerberosTime => rTime_tagged
  | .uInt32 => rUInt32_tagged

theorem keep {T : MsgType} {v : T.Value} {d : Der} (h : T.Read v d) {gone : Nat → Bool} (hk : ∀ n, gone n = false) :
    ∃ v', T.Read v' (d.without gone) ∧ T.der rfc v' = (T.der rfc v).without gone :=
  ⟨v, by rw [without_none hk]; exact h, by rw [without_none hk]⟩

theorem MsgType.read_without (gone : Nat → Bool) : (T : MsgType) → T ≠ .encApRepPart → (v : T.Value) → (d : Der) → T.Read v d →
    (∀ n, n ∉ optionalComponents T → gone n = false) →
    ∃ v', T.Read v' (d.without gone) ∧ T.der rfc v' = (T.der rfc v).without gone
  | .encApRepPart, h, _, _, _, _ => absurd rfl h
  | .encryptedData, _, v, d, h, hk => EncryptedData_read_without v d h gone hk rfc
  | .apRep, _, _, _, h, hk => keep h (fun n => hk n nofun)
  | .principalName, _, _, _, h, hk => keep h (fun n => hk n nofun)
  | .ticket, _, _, _, h, hk => keep h (fun n => hk n nofun)
  | .apReq, _, _, _, h, hk => keep h (fun n => hk n nofun)
  | .paData, _, _, _, h, hk => keep h (fun n => hk n nofun)
  | .asRep, _, v, d, h, hk => AsRep_read_without v d h gone hk rfc
  | .hostAddress, _, _, _, h, hk => keep h (fun n => hk n nofun)
  | .kdcReqBody, _, v, d, h, hk => KdcReqBody_read_without v d h gone hk rfc
  | .asReq, _, v, d, h, hk => AsReq_read_without v d h gone hk rfc
  | .checksum, _, _, _, h, hk => keep h (fun n => hk n nofun)
  | .encryptionKey, _, _, _, h, hk => keep h (fun n => hk n nofun)
  | .authorizationDataEntry, _, _, _, h, hk => keep h (fun n => hk n nofun)
  | .authenticator, _, v, d, h, hk => Authenticator_read_without v d h gone hk rfc
  | .lastReqEntry, _, _, _, h, hk => keep h (fun n => hk n nofun)
  | .encAsRepPart, _, v, d, h, hk => EncAsRepPart_read_without v d h gone hk rfc
  | .encKdcRepPart, _, v, d, h, hk => EncKdcRepPart_read_without v d h gone hk rfc
  | .krbCredInfo, _, v, d, h, hk => KrbCredInfo_read_without v d h gone hk rfc
  | .encKrbCredPart, _, v, d, h, hk => EncKrbCredPart_read_without v d h gone hk rfc
  | .encKrbPrivPart, _, v, d, h, hk => EncKrbPrivPart_read_without v d h gone hk rfc
  | .encTgsRepPart, _, v, d, h, hk => EncTgsRepPart_read_without v d h gone hk rfc
  | .transitedEncoding, _, _, _, h, hk => keep h (fun n => hk n nofun)
  | .encTicketPart, _, v, d, h, hk => EncTicketPart_read_without v d h gone hk rfc
  | .kdcReq, _, v, d, h, hk => KdcReq_read_without v d h gone hk rfc
  | .kerbAdRestrictionEntry, _, _, _, h, hk => keep h (fun n => hk n nofun)
  | .kerbErrorData, _, v, d, h, hk => KerbErrorData_read_without v d h gone hk
  | .krbCred, _, _, _, h, hk => keep h (fun n => hk n nofun)
  | .krbError, _, v, d, h, hk => KrbError_read_without v d h gone hk rfc
  | .krbPriv, _, _, _, h, hk => keep h (fun n => hk n nofun)
  | .krbSafeBody, _, v, d, h, hk => KrbSafeBody_read_without v d h gone hk rfc
  | .krbSafe, _, _, _, h, hk => keep h (fun n => hk n nofun)
  | .adAndOr, _, _, _, h, hk => keep h (fun n => hk n nofun)
  | .adKdcIssued, _, v, d, h, hk => AdKdcIssued_read_without v d h gone hk
  | .etypeInfo2Entry, _, v, d, h, hk => EtypeInfo2Entry_read_without v d h gone hk
  | .etypeInfoEntry, _, v, d, h, hk => EtypeInfoEntry_read_without v d h gone hk
  | .kerbPaPacRequest, _, _, _, h, hk => keep h (fun n => hk n nofun)
  | .paEncTsEnc, _, v, d, h, hk => PaEncTsEnc_read_without v d h gone hk rfc
  | .paForUser, _, _, _, h, hk => keep h (fun n => hk n nofun)
  | .paPacOptions, _, _, _, h, hk => keep h (fun n => hk n nofun)
  | .s4uUserId, _, v, d, h, hk => S4uUserId_read_without v d h gone hk rfc
  | .paS4uX509User, _, _, _, h, hk => keep h (fun n => hk n nofun)
  | .tgsRep, _, v, d, h, hk => TgsRep_read_without v d h gone hk rfc
  | .tgsReq, _, v, d, h, hk => TgsReq_read_without v d h gone hk rfc
  | .typedDataEntry, _, v, d, h, hk => TypedDataEntry_read_without v d h gone hk
  | .hostAddresses, _, _, _, h, hk => keep h (fun n => hk n nofun)
  | .authorizationData, _, _, _, h, hk => keep h (fun n => hk n nofun)
  | .lastReq, _, _, _, h, hk => keep h (fun n => hk n nofun)
  | .typedData, _, _, _, h, hk => keep h (fun n => hk n nofun)
  | .etypeInfo, _, _, _, h, hk => keep h (fun n => hk n nofun)
  | .etypeInfo2, _, _, _, h, hk => keep h (fun n => hk n nofun)
  | .methodData, _, _, _, h, hk => keep h (fun n => hk n nofun)
  | .kerbKeyListRep, _, _, _, h, hk => keep h (fun n => hk n nofun)
  | .kerbKeyListReq, _, _, _, h, hk => keep h (fun n => hk n nofun)
  | .kerbLocal, _, _, _, h, hk => keep h (fun n => hk n nofun)
  | .realm, _, _, _, h, hk => keep h (fun n => hk n nofun)
  | .int32, _, _, _, h, hk => keep h (fun n => hk n nofun)
  | .kerberosFlags, _, _, _, h, hk => keep h (fun n => hk n nofun)
  | .kerberosTime, _, _, _, h, hk => keep h (fun n => hk n nofun)
  | .uInt32, _, _, _, h, hk => keep h (fun n => hk n nofun)

theorem MsgType.read_has : (T : MsgType) → (v : T.Value) → (d : Der) → T.Read v d → T ≠ .encApRepPart → requiredComponents T ≠ [] →
    Has d (requiredComponents T) (optionalComponents T)
  | .encApRepPart, _, _, _, h, _ => absurd rfl h
  | .encryptedData, v, d, h, _, _ => EncryptedData_read_comps v d h
  | .apRep, v, d, h, _, _ => ApRep_read_comps v d h
  | .principalName, v, d, h, _, _ => PrincipalName_read_comps v d h
  | .ticket, v, d, h, _, _ => Ticket_read_comps v d h
  | .apReq, v, d, h, _, _ => ApReq_read_comps v d h
  | .paData, v, d, h, _, _ => PaData_read_comps v d h
  | .asRep, v, d, h, _, _ => AsRep_read_comps v d h
  | .hostAddress, v, d, h, _, _ => HostAddress_read_comps v d h
  | .kdcReqBody, v, d, h, _, _ => KdcReqBody_read_comps v d h
  | .asReq, v, d, h, _, _ => AsReq_read_comps v d h
  | .checksum, v, d, h, _, _ => Checksum_read_comps v d h
  | .encryptionKey, v, d, h, _, _ => EncryptionKey_read_comps v d h
  | .authorizationDataEntry, v, d, h, _, _ => AuthorizationDataEntry_read_comps v d h
  | .authenticator, v, d, h, _, _ => Authenticator_read_comps v d h
  | .lastReqEntry, v, d, h, _, _ => LastReqEntry_read_comps v d h
  | .encAsRepPart, v, d, h, _, _ => EncAsRepPart_read_comps v d h
  | .encKdcRepPart, v, d, h, _, _ => EncKdcRepPart_read_comps v d h
  | .krbCredInfo, v, d, h, _, _ => KrbCredInfo_read_comps v d h
  | .encKrbCredPart, v, d, h, _, _ => EncKrbCredPart_read_comps v d h
  | .encKrbPrivPart, v, d, h, _, _ => EncKrbPrivPart_read_comps v d h
  | .encTgsRepPart, v, d, h, _, _ => EncTgsRepPart_read_comps v d h
  | .transitedEncoding, v, d, h, _, _ => TransitedEncoding_read_comps v d h
  | .encTicketPart, v, d, h, _, _ => EncTicketPart_read_comps v d h
  | .kdcReq, v, d, h, _, _ => KdcReq_read_comps v d h
  | .kerbAdRestrictionEntry, v, d, h, _, _ => KerbAdRestrictionEntry_read_comps v d h
  | .kerbErrorData, v, d, h, _, _ => KerbErrorData_read_comps v d h
  | .krbCred, v, d, h, _, _ => KrbCred_read_comps v d h
  | .krbError, v, d, h, _, _ => KrbError_read_comps v d h
  | .krbPriv, v, d, h, _, _ => KrbPriv_read_comps v d h
  | .krbSafeBody, v, d, h, _, _ => KrbSafeBody_read_comps v d h
  | .krbSafe, v, d, h, _, _ => KrbSafe_read_comps v d h
  | .adAndOr, v, d, h, _, _ => AdAndOr_read_comps v d h
  | .adKdcIssued, v, d, h, _, _ => AdKdcIssued_read_comps v d h
  | .etypeInfo2Entry, v, d, h, _, _ => EtypeInfo2Entry_read_comps v d h
  | .etypeInfoEntry, v, d, h, _, _ => EtypeInfoEntry_read_comps v d h
  | .kerbPaPacRequest, v, d, h, _, _ => KerbPaPacRequest_read_comps v d h
  | .paEncTsEnc, v, d, h, _, _ => PaEncTsEnc_read_comps v d h
  | .paForUser, v, d, h, _, _ => PaForUser_read_comps v d h
  | .paPacOptions, v, d, h, _, _ => PaPacOptions_read_comps v d h
  | .s4uUserId, v, d, h, _, _ => S4uUserId_read_comps v d h
  | .paS4uX509User, v, d, h, _, _ => PaS4uX509User_read_comps v d h
  | .tgsRep, v, d, h, _, _ => TgsRep_read_comps v d h
  | .tgsReq, v, d, h, _, _ => TgsReq_read_comps v d h
  | .typedDataEntry, v, d, h, _, _ => TypedDataEntry_read_comps v d h
  | .hostAddresses, _, _, _, _, h => absurd rfl h
  | .authorizationData, _, _, _, _, h => absurd rfl h
  | .lastReq, _, _, _, _, h => absurd rfl h
  | .typedData, _, _, _, _, h => absurd rfl h
  | .etypeInfo, _, _, _, _, h => absurd rfl h
  | .etypeInfo2, _, _, _, _, h => absurd rfl h
  | .methodData, _, _, _, _, h => absurd rfl h
  | .kerbKeyListRep, _, _, _, _, h => absurd rfl h
  | .kerbKeyListReq, _, _, _, _, h => absurd rfl h
  | .kerbLocal, _, _, _, _, h => absurd rfl h
  | .realm, _, _, _, _, h => absurd rfl h
  | .int32, _, _, _, _, h => absurd rfl h
  | .kerberosFlags, _, _, _, _, h => absurd rfl h
  | .kerberosTime, _, _, _, _, h => absurd rfl h
  | .uInt32, _, _, _, _, h => absurd rfl h

end Verif.Asn1
