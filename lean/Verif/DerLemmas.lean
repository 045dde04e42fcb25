import Verif.Asn1SpecLemmas
/-
DER is unambiguous: a well-tagged value can be told from its octets. Used for the specification of the KDC, which says
what is owed to "the request with these octets".
-/
namespace Verif.Asn1

mutual
/-- primitive values have the constructed bit (0x20) of their tag clear, constructed values have it set -/
def Der.Tagged : Der → Prop
  | .prim t _ => t &&& 0x20 = 0
  | .node t l => t &&& 0x20 ≠ 0 ∧ Der.ListTagged l
/-- the same for each of a list -/
def Der.ListTagged : List Der → Prop
  | [] => True
  | d :: l => d.Tagged ∧ Der.ListTagged l
end

theorem derLen_inj {n m : Nat} (hn : n < 2^64) (hm : m < 2^64) {x y : Bytes} (h : derLen n ++ x = derLen m ++ y) :
    n = m ∧ x = y := by
  rw [← buildLen_eq_derLen, ← buildLen_eq_derLen] at h
  let g : Cfg := ⟨true, true, true, .error .error, fun _ => .error .error, fun _ => .error .error, fun _ => .error .error, fun _ => []⟩
  have h1 := parseLen_reads g n hn x
  have h2 := parseLen_reads g m hm y
  rw [h, h2] at h1
  simp only [Except.ok.injEq, Prod.mk.injEq] at h1
  exact ⟨h1.1.symm, h1.2.symm⟩

theorem Der.bytes_ne (d : Der) : d.bytes ≠ [] := by
  cases d <;> simp [Der.bytes]

theorem block_inj {t t' : UInt8} {a b x y : Bytes} (ha : a.length < 2^64) (hb : b.length < 2^64)
    (h : (t :: derLen a.length ++ a) ++ x = (t' :: derLen b.length ++ b) ++ y) : t = t' ∧ a = b ∧ x = y := by
  simp only [List.cons_append, List.append_assoc, List.cons.injEq] at h
  obtain ⟨h1, h2⟩ := derLen_inj ha hb h.2
  obtain ⟨h3, h4⟩ := List.append_inj h2 h1
  exact ⟨h.1, h3, h4⟩

mutual
/-- different well-tagged values have different octets, and none is a prefix of another -/
theorem Der.bytes_inj : ∀ (d e : Der) (x y : Bytes), d.Tagged → e.Tagged → d.bytes.length < 2^64 → e.bytes.length < 2^64 →
    d.bytes ++ x = e.bytes ++ y → d = e ∧ x = y
  | .prim t a, .prim t' b, x, y, _, _, ha, hb, h => by
    simp only [Der.bytes, List.length_append, List.length_cons] at ha hb
    have := block_inj (by omega) (by omega) h
    exact ⟨by rw [this.1, this.2.1], this.2.2⟩
  | .prim t a, .node t' l, x, y, hd, he, ha, hb, h => by
    simp only [Der.bytes, List.length_append, List.length_cons] at ha hb
    have := block_inj (by omega) (by omega) h
    have h1 := hd
    rw [Der.Tagged, this.1] at h1
    exact absurd h1 he.1
  | .node t l, .prim t' b, x, y, hd, he, ha, hb, h => by
    simp only [Der.bytes, List.length_append, List.length_cons] at ha hb
    have := block_inj (by omega) (by omega) h
    have h1 := he
    rw [Der.Tagged, ← this.1] at h1
    exact absurd h1 hd.1
  | .node t l, .node t' m, x, y, hd, he, ha, hb, h => by
    simp only [Der.bytes, List.length_append, List.length_cons] at ha hb
    have := block_inj (by omega) (by omega) h
    exact ⟨by rw [this.1, Der.listBytes_inj l m hd.2 he.2 (by omega) (by omega) this.2.1], this.2.2⟩
/-- the same for a list of values -/
theorem Der.listBytes_inj : ∀ (l m : List Der), Der.ListTagged l → Der.ListTagged m → (Der.listBytes l).length < 2^64 →
    (Der.listBytes m).length < 2^64 → Der.listBytes l = Der.listBytes m → l = m
  | [], [], _, _, _, _, _ => rfl
  | [], e :: m, _, _, _, _, h => by
    simp only [Der.listBytes] at h
    exact absurd (List.append_eq_nil_iff.1 h.symm).1 e.bytes_ne
  | d :: l, [], _, _, _, _, h => by
    simp only [Der.listBytes] at h
    exact absurd (List.append_eq_nil_iff.1 h).1 d.bytes_ne
  | d :: l, e :: m, hd, he, ha, hb, h => by
    simp only [Der.listBytes, List.length_append] at ha hb h
    obtain ⟨h1, h2⟩ := Der.bytes_inj d e _ _ hd.1 he.1 (by omega) (by omega) h
    rw [h1, Der.listBytes_inj l m hd.2 he.2 (by omega) (by omega) h2]
end

theorem Der.bytes_eq {d e : Der} (hd : d.Tagged) (he : e.Tagged) (hs : d.bytes.length < 2^64) (h : d.bytes = e.bytes) : d = e :=
  (Der.bytes_inj d e [] [] hd he hs (by rw [← h]; exact hs) (by rw [h])).1

/-! ### sizes -/

theorem Der.length_mem {d : Der} {l : List Der} (h : d ∈ l) : d.bytes.length ≤ (Der.listBytes l).length := by
  induction l with
  | nil => cases h
  | cons e l ih =>
    simp only [Der.listBytes, List.length_append]
    rcases List.mem_cons.1 h with rfl | h
    · omega
    · have := ih h; omega

theorem Der.length_node {d : Der} {t l} (h : d ∈ l) : d.bytes.length < (Der.node t l).bytes.length := by
  have := Der.length_mem h
  simp only [Der.bytes, List.length_append, List.length_cons]
  omega

theorem Der.length_prim (t : UInt8) (c : Bytes) : c.length < (Der.prim t c).bytes.length := by
  simp only [Der.bytes, List.length_append, List.length_cons]
  omega

/-! ### the messages are well tagged -/

theorem listTagged_append {l m : List Der} : Der.ListTagged (l ++ m) ↔ Der.ListTagged l ∧ Der.ListTagged m := by
  induction l with
  | nil => simp [Der.ListTagged]
  | cons d l ih => simp [Der.ListTagged, ih, and_assoc]

theorem ctx_tag (n : Nat) (h : n < 32) : UInt8.ofNat (0xa0 + n) &&& 0x20 ≠ 0 := by
  have h' : ∀ k : Fin 32, UInt8.ofNat (0xa0 + k.val) &&& 0x20 ≠ 0 := by decide
  exact h' ⟨n, h⟩

theorem req_tagged {α} {n : Nat} {f : α → Der} {a : α} (hn : n < 32) (h : (f a).Tagged) : Der.ListTagged (req n f a) := by
  simp only [req, Der.ListTagged, Der.Tagged, and_true]
  exact ⟨ctx_tag n hn, h⟩

theorem opt_tagged {α} {n : Nat} {f : α → Der} {a : Option α} (hn : n < 32) (h : ∀ x, (f x).Tagged) : Der.ListTagged (opt n f a) := by
  cases a with
  | none => exact trivial
  | some x => exact req_tagged hn (h x)

theorem seqOf_tagged {α} {f : α → Der} (h : ∀ x, (f x).Tagged) (l : List α) : (dSeqOf f l).Tagged := by
  refine ⟨by decide, ?_⟩
  induction l with
  | nil => exact trivial
  | cons a l ih => exact ⟨h a, ih⟩

theorem dInt32_tagged (x : Int32) : (dInt32 x).Tagged := by show (2 : UInt8) &&& 0x20 = 0; decide
theorem dUInt32_tagged (w : WireForm) (x : UInt32) : (dUInt32 w x).Tagged := by show (2 : UInt8) &&& 0x20 = 0; decide
theorem dOctets_tagged (x : Bytes) : (dOctets x).Tagged := by show (4 : UInt8) &&& 0x20 = 0; decide
theorem dString_tagged (x : List Char) : (dString x).Tagged := by show (0x1b : UInt8) &&& 0x20 = 0; decide
theorem dFlags_tagged (x : UInt32) : (dFlags x).Tagged := by show (3 : UInt8) &&& 0x20 = 0; decide
theorem dTime_tagged (w : WireForm) (x : DateTime) : (dTime w x).Tagged := by show (0x18 : UInt8) &&& 0x20 = 0; decide

theorem principalName_tagged (v : PrincipalName) : (PrincipalName.der v).Tagged :=
  ⟨by decide, listTagged_append.2 ⟨req_tagged (by omega) (dInt32_tagged _),
    req_tagged (by omega) (seqOf_tagged dString_tagged _)⟩⟩
theorem paData_tagged (v : PaData) : (PaData.der v).Tagged :=
  ⟨by decide, listTagged_append.2 ⟨req_tagged (by omega) (dInt32_tagged _), req_tagged (by omega) (dOctets_tagged _)⟩⟩
theorem hostAddress_tagged (v : HostAddress) : (HostAddress.der v).Tagged :=
  ⟨by decide, listTagged_append.2 ⟨req_tagged (by omega) (dInt32_tagged _), req_tagged (by omega) (dOctets_tagged _)⟩⟩
theorem encryptedData_tagged (w : WireForm) (v : EncryptedData) : (EncryptedData.der w v).Tagged :=
  ⟨by decide, listTagged_append.2 ⟨req_tagged (by omega) (dInt32_tagged _),
    listTagged_append.2 ⟨opt_tagged (by omega) (dUInt32_tagged w), req_tagged (by omega) (dOctets_tagged _)⟩⟩⟩
theorem ticket_tagged (w : WireForm) (v : Ticket) : (Ticket.der w v).Tagged :=
  ⟨by decide, ⟨by decide, listTagged_append.2 ⟨req_tagged (by omega) (dInt32_tagged _),
    listTagged_append.2 ⟨req_tagged (by omega) (dString_tagged _),
    listTagged_append.2 ⟨req_tagged (by omega) (principalName_tagged _),
    req_tagged (by omega) (encryptedData_tagged w _)⟩⟩⟩⟩, trivial⟩
theorem kdcReqBody_tagged (w : WireForm) (v : KdcReqBody) : (KdcReqBody.der w v).Tagged :=
  ⟨by decide, listTagged_append.2 ⟨req_tagged (by omega) (dFlags_tagged _),
    listTagged_append.2 ⟨opt_tagged (by omega) principalName_tagged,
    listTagged_append.2 ⟨req_tagged (by omega) (dString_tagged _),
    listTagged_append.2 ⟨opt_tagged (by omega) principalName_tagged,
    listTagged_append.2 ⟨opt_tagged (by omega) (dTime_tagged w),
    listTagged_append.2 ⟨req_tagged (by omega) (dTime_tagged w _),
    listTagged_append.2 ⟨opt_tagged (by omega) (dTime_tagged w),
    listTagged_append.2 ⟨req_tagged (by omega) (dUInt32_tagged w _),
    listTagged_append.2 ⟨req_tagged (by omega) (seqOf_tagged dInt32_tagged _),
    listTagged_append.2 ⟨opt_tagged (by omega) (seqOf_tagged hostAddress_tagged),
    listTagged_append.2 ⟨opt_tagged (by omega) (encryptedData_tagged w),
    opt_tagged (by omega) (seqOf_tagged (ticket_tagged w))⟩⟩⟩⟩⟩⟩⟩⟩⟩⟩⟩⟩
theorem asReq_tagged (w : WireForm) (v : AsReq) : (AsReq.der w v).Tagged :=
  ⟨by decide, ⟨by decide, listTagged_append.2 ⟨req_tagged (by omega) (dInt32_tagged _),
    listTagged_append.2 ⟨req_tagged (by omega) (dInt32_tagged _),
    listTagged_append.2 ⟨opt_tagged (by omega) (seqOf_tagged paData_tagged),
    req_tagged (by omega) (kdcReqBody_tagged w _)⟩⟩⟩⟩, trivial⟩

/-! ### components -/

/-- tag octet -/
def Der.tag : Der → UInt8
  | .prim t _ => t
  | .node t _ => t

/-- first of the values with this tag -/
def comp (t : UInt8) (l : List Der) : Option Der := l.find? (fun d => d.tag = t)

theorem comp_req {α} {n : Nat} {f : α → Der} {a : α} {l : List Der} {t : UInt8} :
    comp t (req n f a ++ l) = if UInt8.ofNat (0xa0 + n) = t then some (.node (UInt8.ofNat (0xa0 + n)) [f a]) else comp t l := by
  unfold comp req
  rw [List.cons_append, List.nil_append, List.find?_cons]
  show (match decide (UInt8.ofNat (0xa0 + n) = t) with
    | true => some (Der.node (UInt8.ofNat (0xa0 + n)) [f a])
    | false => List.find? (fun d => decide (d.tag = t)) l) = _
  by_cases h : UInt8.ofNat (0xa0 + n) = t
  · rw [if_pos h, decide_eq_true h]
  · rw [if_neg h, decide_eq_false h]

theorem comp_opt_ne {α} {n : Nat} {f : α → Der} {a : Option α} {l : List Der} {t : UInt8} (h : UInt8.ofNat (0xa0 + n) ≠ t) :
    comp t (opt n f a ++ l) = comp t l := by
  cases a with
  | none => rfl
  | some x => exact comp_req.trans (if_neg h)

theorem comp_opt_eq {α} {n : Nat} {f : α → Der} {a : Option α} {l : List Der} {t : UInt8} (h : UInt8.ofNat (0xa0 + n) = t)
    (hl : comp t l = none) : comp t (opt n f a ++ l) = a.map fun x => .node t [f x] := by
  cases a with
  | none => exact hl
  | some x => exact comp_req.trans (by rw [if_pos h, h]; rfl)

theorem comp_req_end {α} {n : Nat} {f : α → Der} {a : α} {t : UInt8} :
    comp t (req n f a) = if UInt8.ofNat (0xa0 + n) = t then some (.node (UInt8.ofNat (0xa0 + n)) [f a]) else none := by
  have := @comp_req α n f a [] t
  rw [List.append_nil] at this
  exact this

theorem comp_opt_end_ne {α} {n : Nat} {f : α → Der} {a : Option α} {t : UInt8} (h : UInt8.ofNat (0xa0 + n) ≠ t) :
    comp t (opt n f a) = none := by
  have := @comp_opt_ne α n f a [] t h
  rw [List.append_nil] at this
  exact this

/-! ### leaves -/

theorem twosVal_derInt (v : Int) (h : -2^31 ≤ v) (h' : v < 2^32) : twosVal (derInt v) = v := by
  unfold derInt
  have b : ∀ i, (UInt8.ofNat (v / 256 ^ i % 256).toNat).toNat = (v / 256 ^ i % 256).toNat := by
    intro i
    rw [UInt8.toNat_ofNat']
    have := Int.emod_lt_of_pos (v / 256 ^ i) (show (0 : Int) < 256 by omega)
    have := Int.emod_nonneg (v / 256 ^ i) (show (256 : Int) ≠ 0 by omega)
    omega
  have b0 := b 0; have b1 := b 1; have b2 := b 2; have b3 := b 3; have b4 := b 4
  simp only [show (256 : Int) ^ 0 = 1 from rfl, show (256 : Int) ^ 1 = 256 from rfl, show (256 : Int) ^ 2 = 65536 from rfl,
    show (256 : Int) ^ 3 = 16777216 from rfl, show (256 : Int) ^ 4 = 4294967296 from rfl] at b0 b1 b2 b3 b4 ⊢
  split
  · simp only [twosVal, beNat, List.foldl_cons, List.foldl_nil, b0, List.length_cons, List.length_nil]
    split <;> omega
  split
  · simp only [twosVal, beNat, List.foldl_cons, List.foldl_nil, b0, b1, List.length_cons, List.length_nil]
    split <;> omega
  split
  · simp only [twosVal, beNat, List.foldl_cons, List.foldl_nil, b0, b1, b2, List.length_cons, List.length_nil]
    split <;> omega
  split
  · simp only [twosVal, beNat, List.foldl_cons, List.foldl_nil, b0, b1, b2, b3, List.length_cons, List.length_nil]
    split <;> omega
  · simp only [twosVal, beNat, List.foldl_cons, List.foldl_nil, b0, b1, b2, b3, b4, List.length_cons, List.length_nil]
    split <;> omega

theorem dInt32_inj {x y : Int32} (h : dInt32 x = dInt32 y) : x = y := by
  injection h with _ h
  have h1 := twosVal_derInt x.toInt x.le_toInt (by have := x.toInt_lt; omega)
  have h2 := twosVal_derInt y.toInt y.le_toInt (by have := y.toInt_lt; omega)
  rw [h] at h1
  exact Int32.toInt_inj.1 (h1.symm.trans h2)

theorem dUInt32_rfc_inj {x y : UInt32} (h : dUInt32 rfc x = dUInt32 rfc y) : x = y := by
  obtain ⟨-, h⟩ := Der.prim.inj h
  have h : derInt (x.toNat : Int) = derInt (y.toNat : Int) := h
  have hx := x.toNat_lt
  have hy := y.toNat_lt
  generalize hn : (x.toNat : Int) = n at h
  generalize hm : (y.toNat : Int) = m at h
  have h1 := twosVal_derInt n (by omega) (by omega)
  rw [h, twosVal_derInt m (by omega) (by omega)] at h1
  exact UInt32.toNat_inj.1 (by omega)

theorem dString_inj {x y : List Char} (h : dString x = dString y) : x = y := by
  injection h with _ h
  exact utf8_inj h

theorem dOctets_inj {x y : Bytes} (h : dOctets x = dOctets y) : x = y := by
  injection h

theorem dSeqOf_inj {α} {f : α → Der} (hf : ∀ x y, f x = f y → x = y) {l m : List α} (h : dSeqOf f l = dSeqOf f m) : l = m := by
  injection h with _ h
  induction l generalizing m with
  | nil => cases m with
    | nil => rfl
    | cons _ _ => simp at h
  | cons a l ih => cases m with
    | nil => simp at h
    | cons b m =>
      simp only [List.map_cons, List.cons.injEq] at h
      rw [hf _ _ h.1, ih h.2]

theorem principalName_inj {x y : PrincipalName} (h : PrincipalName.der x = PrincipalName.der y) : x = y := by
  cases x; cases y
  simp only [PrincipalName.der, req, List.cons_append, List.nil_append, Der.node.injEq, List.cons.injEq, and_true, true_and] at h
  rw [dInt32_inj h.1, dSeqOf_inj (fun _ _ => dString_inj) h.2]

theorem paData_inj {x y : PaData} (h : PaData.der x = PaData.der y) : x = y := by
  cases x; cases y
  simp only [PaData.der, req, List.cons_append, List.nil_append, Der.node.injEq, List.cons.injEq, and_true, true_and] at h
  rw [dInt32_inj h.1, dOctets_inj h.2]

/-! ### requests -/

/-- what a KDC reads from the octets of a request -/
structure SameRequest (r s : AsReq) : Prop where
  pvno : r.pvno = s.pvno
  msg_type : r.msg_type = s.msg_type
  padata : r.padata = s.padata
  cname : r.req_body.cname = s.req_body.cname
  realm : r.req_body.realm = s.req_body.realm
  sname : r.req_body.sname = s.req_body.sname
  nonce : r.req_body.nonce = s.req_body.nonce
  etypes : r.req_body.etypes = s.req_body.etypes

theorem node1_inj {t t' : UInt8} {d e : Der} (h : some (Der.node t [d]) = some (Der.node t' [e])) : d = e := by
  injection h with h; injection h with _ h; injection h

theorem map_node_inj {α} {f : α → Der} (hf : ∀ x y, f x = f y → x = y) {t : UInt8} {a b : Option α}
    (h : (a.map fun x => Der.node t [f x]) = b.map fun x => Der.node t [f x]) : a = b := by
  cases a with
  | none => cases b with
    | none => rfl
    | some _ => cases h
  | some x => cases b with
    | none => cases h
    | some y => rw [hf x y (node1_inj h)]

theorem body_nonce (w : WireForm) (v : KdcReqBody) (l) (h : KdcReqBody.der w v = .node 0x30 l) :
    comp 0xa7 l = some (.node 0xa7 [dUInt32 w v.nonce]) := by
  injection h with _ h
  subst h
  rw [comp_req, if_neg (by decide), comp_opt_ne (by decide), comp_req, if_neg (by decide), comp_opt_ne (by decide),
    comp_opt_ne (by decide), comp_req, if_neg (by decide), comp_opt_ne (by decide), comp_req, if_pos (by decide)]
  rfl

theorem body_etypes (w : WireForm) (v : KdcReqBody) (l) (h : KdcReqBody.der w v = .node 0x30 l) :
    comp 0xa8 l = some (.node 0xa8 [dSeqOf dInt32 v.etypes]) := by
  injection h with _ h
  subst h
  rw [comp_req, if_neg (by decide), comp_opt_ne (by decide), comp_req, if_neg (by decide), comp_opt_ne (by decide),
    comp_opt_ne (by decide), comp_req, if_neg (by decide), comp_opt_ne (by decide), comp_req, if_neg (by decide),
    comp_req, if_pos (by decide)]
  rfl

theorem body_realm (w : WireForm) (v : KdcReqBody) (l) (h : KdcReqBody.der w v = .node 0x30 l) :
    comp 0xa2 l = some (.node 0xa2 [dString v.realm]) := by
  injection h with _ h
  subst h
  rw [comp_req, if_neg (by decide), comp_opt_ne (by decide), comp_req, if_pos (by decide)]
  rfl

theorem body_cname (w : WireForm) (v : KdcReqBody) (l) (h : KdcReqBody.der w v = .node 0x30 l) :
    comp 0xa1 l = v.cname.map fun x => .node 0xa1 [PrincipalName.der x] := by
  injection h with _ h
  subst h
  rw [comp_req, if_neg (by decide), comp_opt_eq (by decide)]
  rw [comp_req, if_neg (by decide), comp_opt_ne (by decide),
    comp_opt_ne (by decide), comp_req, if_neg (by decide), comp_opt_ne (by decide), comp_req, if_neg (by decide),
    comp_req, if_neg (by decide), comp_opt_ne (by decide), comp_opt_ne (by decide), comp_opt_end_ne (by decide)]

theorem body_sname (w : WireForm) (v : KdcReqBody) (l) (h : KdcReqBody.der w v = .node 0x30 l) :
    comp 0xa3 l = v.sname.map fun x => .node 0xa3 [PrincipalName.der x] := by
  injection h with _ h
  subst h
  rw [comp_req, if_neg (by decide), comp_opt_ne (by decide), comp_req, if_neg (by decide), comp_opt_eq (by decide)]
  rw [comp_opt_ne (by decide), comp_req, if_neg (by decide), comp_opt_ne (by decide), comp_req, if_neg (by decide),
    comp_req, if_neg (by decide), comp_opt_ne (by decide), comp_opt_ne (by decide), comp_opt_end_ne (by decide)]

theorem asReq_pvno (w : WireForm) (r : AsReq) (l) (h : AsReq.der w r = .node 0x6a [.node 0x30 l]) :
    comp 0xa1 l = some (.node 0xa1 [dInt32 r.pvno]) := by
  injection h with _ h
  injection h with h
  injection h with _ h
  subst h
  rw [comp_req, if_pos (by decide)]
  rfl

theorem asReq_msgType (w : WireForm) (r : AsReq) (l) (h : AsReq.der w r = .node 0x6a [.node 0x30 l]) :
    comp 0xa2 l = some (.node 0xa2 [dInt32 r.msg_type]) := by
  injection h with _ h
  injection h with h
  injection h with _ h
  subst h
  rw [comp_req, if_neg (by decide), comp_req, if_pos (by decide)]
  rfl

theorem asReq_padata (w : WireForm) (r : AsReq) (l) (h : AsReq.der w r = .node 0x6a [.node 0x30 l]) :
    comp 0xa3 l = r.padata.map fun x => .node 0xa3 [dSeqOf PaData.der x] := by
  injection h with _ h
  injection h with h
  injection h with _ h
  subst h
  rw [comp_req, if_neg (by decide), comp_req, if_neg (by decide), comp_opt_eq (by decide)]
  rw [comp_req_end, if_neg (by decide)]

theorem asReq_reqBody (w : WireForm) (r : AsReq) (l) (h : AsReq.der w r = .node 0x6a [.node 0x30 l]) :
    comp 0xa4 l = some (.node 0xa4 [KdcReqBody.der w r.req_body]) := by
  injection h with _ h
  injection h with h
  injection h with _ h
  subst h
  rw [comp_req, if_neg (by decide), comp_req, if_neg (by decide), comp_opt_ne (by decide), comp_req_end, if_pos (by decide)]
  rfl

theorem asReq_body (w w' : WireForm) (r s : AsReq) (h : AsReq.der w r = AsReq.der w' s) :
    dInt32 r.pvno = dInt32 s.pvno ∧ dInt32 r.msg_type = dInt32 s.msg_type ∧ r.padata = s.padata ∧
      KdcReqBody.der w r.req_body = KdcReqBody.der w' s.req_body := by
  have h1 := asReq_pvno w' s _ h.symm
  have h2 := asReq_msgType w' s _ h.symm
  have h3 := asReq_padata w' s _ h.symm
  have h4 := asReq_reqBody w' s _ h.symm
  rw [asReq_pvno w r _ rfl] at h1
  rw [asReq_msgType w r _ rfl] at h2
  rw [asReq_padata w r _ rfl] at h3
  rw [asReq_reqBody w r _ rfl] at h4
  exact ⟨node1_inj h1, node1_inj h2, map_node_inj (fun _ _ h => dSeqOf_inj (fun _ _ => paData_inj) h) h3, node1_inj h4⟩

/-- Two requests with the same octets are the same request, as far as a KDC is concerned. -/
theorem asReq_same {r s : AsReq} (hs : (AsReq.der rfc r).bytes.length < 2^64) (h : (AsReq.der rfc r).bytes = (AsReq.der rfc s).bytes) :
    SameRequest r s := by
  have h := Der.bytes_eq (asReq_tagged rfc r) (asReq_tagged rfc s) hs h
  obtain ⟨h1, h2, h3, h4⟩ := asReq_body rfc rfc r s h
  have h5 := body_nonce rfc s.req_body _ h4.symm
  have h6 := body_etypes rfc s.req_body _ h4.symm
  have h7 := body_realm rfc s.req_body _ h4.symm
  have h8 := body_cname rfc s.req_body _ h4.symm
  have h9 := body_sname rfc s.req_body _ h4.symm
  rw [body_nonce rfc r.req_body _ rfl] at h5
  rw [body_etypes rfc r.req_body _ rfl] at h6
  rw [body_realm rfc r.req_body _ rfl] at h7
  rw [body_cname rfc r.req_body _ rfl] at h8
  rw [body_sname rfc r.req_body _ rfl] at h9
  exact ⟨dInt32_inj h1, dInt32_inj h2, h3, map_node_inj (fun _ _ => principalName_inj) h8, dString_inj (node1_inj h7),
    map_node_inj (fun _ _ => principalName_inj) h9, dUInt32_rfc_inj (node1_inj h5), dSeqOf_inj (fun _ _ => dInt32_inj) (node1_inj h6)⟩

/-- Octets written with a negative number for the nonce are those of no request of the RFC. -/
theorem asReq_negative_nonce {w : WireForm} {r : AsReq} (hn : -2^31 ≤ w.u32 r.req_body.nonce ∧ w.u32 r.req_body.nonce < 0)
    (hs : (AsReq.der w r).bytes.length < 2^64) (s : AsReq) : (AsReq.der w r).bytes ≠ (AsReq.der rfc s).bytes := by
  intro h
  have h := Der.bytes_eq (asReq_tagged w r) (asReq_tagged rfc s) hs h
  have h4 := (asReq_body w rfc r s h).2.2.2
  have h5 := body_nonce rfc s.req_body _ h4.symm
  rw [body_nonce w r.req_body _ rfl] at h5
  have h6 := node1_inj h5
  injection h6 with _ h6
  have h7 := twosVal_derInt (w.u32 r.req_body.nonce) hn.1 (by omega)
  have h8 := twosVal_derInt (rfc.u32 s.req_body.nonce) (by show _ ≤ (s.req_body.nonce.toNat : Int); omega)
    (by show (s.req_body.nonce.toNat : Int) < _; have := s.req_body.nonce.toNat_lt; omega)
  rw [h6, h8] at h7
  have : (s.req_body.nonce.toNat : Int) = w.u32 r.req_body.nonce := h7
  omega

end Verif.Asn1
