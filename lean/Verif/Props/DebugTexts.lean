import Verif.DebugModel
import Verif.Props.Resave
import Verif.KeytabSpec
/-
C107: what the debug output of caches, keytabs and credentials reveals.
-/
namespace Verif.Dbg

/-! ### Lemmas -/

/-- does not begin with a digit -/
def NoDigit (t : Text) : Prop := ∀ c u, t = c :: u → c.isDigit = false

/-- the value can be read back, and one sees where its text ends, as long as no digit follows -/
def Delim {α} (f : α → Text) : Prop := ∀ a b r r', NoDigit r → NoDigit r' → f a ++ r = f b ++ r' → a = b ∧ r = r'

theorem noDigit_cons {c : Char} {t : Text} (h : c.isDigit = false) : NoDigit (c :: t) := by
  intro c' u he; injection he with h1 _; exact h1 ▸ h

theorem noDigit_nil : NoDigit [] := by intro c u h; cases h

theorem noDigit_comma (t : Text) : NoDigit (", ".toList ++ t) := noDigit_cons (by decide)
theorem noDigit_close (t : Text) : NoDigit (" }".toList ++ t) := noDigit_cons (by decide)
theorem noDigit_paren (t : Text) : NoDigit (")".toList ++ t) := noDigit_cons (by decide)

theorem digits_end {d d' r r' : Text} (hd : ∀ c ∈ d, c.isDigit = true) (hd' : ∀ c ∈ d', c.isDigit = true)
    (hr : NoDigit r) (hr' : NoDigit r') (h : d ++ r = d' ++ r') : d = d' ∧ r = r' := by
  induction d generalizing d' with
  | nil =>
    cases d' with
    | nil => exact ⟨rfl, h⟩
    | cons c u =>
      have h1 := hr c _ h
      rw [hd' c (List.mem_cons_self ..)] at h1
      cases h1
  | cons c u ih =>
    cases d' with
    | nil =>
      have h1 := hr' c _ h.symm
      rw [hd c (List.mem_cons_self ..)] at h1
      cases h1
    | cons c' u' =>
      simp only [List.cons_append] at h
      injection h with h1 h2
      obtain ⟨h3, h4⟩ := ih (fun x hx => hd x (List.mem_cons_of_mem _ hx)) (fun x hx => hd' x (List.mem_cons_of_mem _ hx)) h2
      exact ⟨by rw [h1, h3], h4⟩

theorem num_inj {a b : Nat} (h : num a = num b) : a = b := by
  unfold num at h
  have h1 := congrArg (fun l => Nat.ofDigitChars 10 l 0) h
  simpa [Nat.ofDigitChars_ten_toDigits] using h1

theorem num_digits (n : Nat) : ∀ c ∈ num n, c.isDigit = true :=
  fun _ h => Nat.isDigit_of_mem_toDigits (by decide) (by decide) h

theorem num_delim : Delim num := fun a b _ _ hr hr' h =>
  have h1 := digits_end (num_digits a) (num_digits b) hr hr' h
  ⟨num_inj h1.1, h1.2⟩

theorem Delim.comp {α β} {f : β → Text} (hf : Delim f) {g : α → β} (hg : ∀ a b, g a = g b → a = b) :
    Delim (fun a => f (g a)) := fun a b r r' hr hr' h =>
  have h1 := hf (g a) (g b) r r' hr hr' h
  ⟨hg _ _ h1.1, h1.2⟩

theorem u8_delim : Delim (fun x : UInt8 => num x.toNat) := num_delim.comp fun _ _ h => UInt8.toNat_inj.1 h
theorem u16_delim : Delim (fun x : UInt16 => num x.toNat) := num_delim.comp fun _ _ h => UInt16.toNat_inj.1 h
theorem u32_delim : Delim (fun x : UInt32 => num x.toNat) := num_delim.comp fun _ _ h => UInt32.toNat_inj.1 h

/-- the text has a first character, and it is not a closing bracket -/
def Starts {α} (f : α → Text) : Prop := ∀ a, ∃ c u, f a = c :: u ∧ c ≠ ']'

theorem num_starts {α} (g : α → Nat) : Starts (fun a => num (g a)) := by
  intro a
  have h := Nat.toDigits_ne_nil (n := g a) (b := 10)
  have h2 := num_digits (g a)
  show ∃ c u, num (g a) = c :: u ∧ _
  unfold num at *
  generalize Nat.toDigits 10 (g a) = l at h h2
  cases l with
  | nil => exact absurd rfl h
  | cons c u =>
    refine ⟨c, u, rfl, fun hc => ?_⟩
    have := h2 c (List.mem_cons_self ..)
    rw [hc] at this
    exact absurd this (by decide)

theorem vec_delim {α} {f : α → Text} (hf : Delim f) (hs : Starts f) : Delim (vec f) := by
  intro l l' r r' hr hr' h
  unfold vec at h
  simp only [List.cons_append, List.append_assoc, List.nil_append] at h
  injection h with _ h
  have hb : ∀ t : Text, NoDigit (']' :: t) := fun t => noDigit_cons (by decide)
  have hc : ∀ (t u : Text), ']' :: t ≠ ", ".toList ++ u := by
    intro t u he
    have he : ']' :: t = ',' :: (' ' :: u) := he
    injection he with h1 _
    exact absurd h1 (by decide)
  induction l generalizing l' with
  | nil =>
    cases l' with
    | nil => simp only [List.map_nil, commas, List.nil_append] at h; injection h with _ h; exact ⟨rfl, h⟩
    | cons y ys =>
      obtain ⟨c, u, hy, hn⟩ := hs y
      cases ys with
      | nil =>
        simp only [List.map_nil, List.map_cons, commas, List.nil_append, hy, List.cons_append] at h
        injection h with h _; exact absurd h.symm hn
      | cons z zs =>
        simp only [List.map_nil, List.map_cons, commas, List.nil_append, hy, List.cons_append] at h
        injection h with h _; exact absurd h.symm hn
  | cons x xs ih =>
    cases l' with
    | nil =>
      obtain ⟨c, u, hx, hn⟩ := hs x
      cases xs with
      | nil =>
        simp only [List.map_nil, List.map_cons, commas, List.nil_append, hx, List.cons_append] at h
        injection h with h _; exact absurd h hn
      | cons z zs =>
        simp only [List.map_nil, List.map_cons, commas, List.nil_append, hx, List.cons_append] at h
        injection h with h _; exact absurd h hn
    | cons y ys =>
      cases xs with
      | nil =>
        cases ys with
        | nil =>
          simp only [List.map_nil, List.map_cons, commas] at h
          obtain ⟨h1, h2⟩ := hf x y _ _ (hb _) (hb _) h
          injection h2 with _ h2
          exact ⟨by rw [h1], h2⟩
        | cons z zs =>
          simp only [List.map_nil, List.map_cons, commas, List.append_assoc] at h
          exact absurd (hf x y _ _ (hb _) (noDigit_comma _) h).2 (hc _ _)
      | cons w ws =>
        cases ys with
        | nil =>
          simp only [List.map_nil, List.map_cons, commas, List.append_assoc] at h
          exact absurd (hf x y _ _ (noDigit_comma _) (hb _) h).2.symm (hc _ _)
        | cons z zs =>
          simp only [List.map_cons, commas, List.append_assoc] at h
          obtain ⟨h1, h2⟩ := hf x y _ _ (noDigit_comma _) (noDigit_comma _) h
          have h2 := List.append_cancel_left h2
          obtain ⟨h3, h4⟩ := ih (z :: zs) (by simpa only [List.map_cons, List.append_assoc] using h2)
          exact ⟨by rw [h1, h3], h4⟩

theorem opt_delim {α} {f : α → Text} (hf : Delim f) : Delim (opt f) := by
  intro a b r r' hr hr' h
  have hc : ∀ t u : Text, "None".toList ++ t ≠ "Some(".toList ++ u := by
    intro t u he
    have he : 'N' :: ("one".toList ++ t) = 'S' :: ("ome(".toList ++ u) := he
    injection he with h1 _
    exact absurd h1 (by decide)
  cases a with
  | none =>
    cases b with
    | none => exact ⟨rfl, List.append_cancel_left h⟩
    | some y => simp only [opt, List.append_assoc] at h; exact absurd h (hc _ _)
  | some x =>
    cases b with
    | none => simp only [opt, List.append_assoc] at h; exact absurd h.symm (hc _ _)
    | some y =>
      simp only [opt, List.append_assoc] at h
      obtain ⟨h1, h2⟩ := hf x y _ _ (noDigit_paren _) (noDigit_paren _) (List.append_cancel_left h)
      exact ⟨by rw [h1], List.append_cancel_left h2⟩

theorem bytes_delim : Delim bytes := vec_delim u8_delim (num_starts _)

/-- reads one field that another one follows -/
theorem field_step {α} {f : α → Text} (hf : Delim f) {a b : α} (n : Text) {R R' : Text}
    (h : n ++ (": ".toList ++ (f a ++ (", ".toList ++ R))) = n ++ (": ".toList ++ (f b ++ (", ".toList ++ R')))) :
    a = b ∧ R = R' := by
  obtain ⟨h1, h2⟩ := hf a b _ _ (noDigit_comma _) (noDigit_comma _) (List.append_cancel_left (List.append_cancel_left h))
  exact ⟨h1, List.append_cancel_left h2⟩

/-- reads the last field -/
theorem field_last {α} {f : α → Text} (hf : Delim f) {a b : α} (n : Text) {R R' : Text}
    (h : n ++ (": ".toList ++ (f a ++ (" }".toList ++ R))) = n ++ (": ".toList ++ (f b ++ (" }".toList ++ R')))) :
    a = b ∧ R = R' := by
  obtain ⟨h1, h2⟩ := hf a b _ _ (noDigit_close _) (noDigit_close _) (List.append_cancel_left (List.append_cancel_left h))
  exact ⟨h1, List.append_cancel_left h2⟩

/-- drops the name of the type -/
theorem struct_open {n t u : Text} (h : n ++ (" { ".toList ++ t) = n ++ (" { ".toList ++ u)) : t = u :=
  List.append_cancel_left (List.append_cancel_left h)

theorem struct_starts {α} {n : String} {g : α → List Text} (c : Char) (u : Text) (hn : n.toList = c :: u) (hc : c ≠ ']') :
    Starts (fun a => struct n (g a)) := by
  intro a
  exact ⟨c, u ++ (" { ".toList ++ (commas (g a) ++ " }".toList)), by unfold struct; rw [hn]; rfl, hc⟩

theorem cos_delim : Delim cos := by
  intro a b r r' hr hr' h
  simp only [cos, struct, field, commas, List.append_assoc] at h
  exact field_last bytes_delim _ (struct_open h)

theorem cos_starts : Starts cos := struct_starts 'C' "ountedOctetString".toList (by decide) (by decide)

theorem ccKeyBlock_delim : Delim ccKeyBlock := by
  rintro ⟨a1, a2, a3⟩ ⟨b1, b2, b3⟩ r r' hr hr' h
  simp only [ccKeyBlock, struct, field, commas, List.append_assoc] at h
  obtain ⟨e1, h⟩ := field_step u16_delim _ (struct_open h)
  obtain ⟨e2, h⟩ := field_step u16_delim _ h
  obtain ⟨e3, h⟩ := field_last bytes_delim _ h
  exact ⟨by subst e1 e2 e3; rfl, h⟩

theorem ccAddress_delim : Delim ccAddress := by
  rintro ⟨a1, a2⟩ ⟨b1, b2⟩ r r' hr hr' h
  simp only [ccAddress, struct, field, commas, List.append_assoc] at h
  obtain ⟨e1, h⟩ := field_step u16_delim _ (struct_open h)
  obtain ⟨e2, h⟩ := field_last cos_delim _ h
  exact ⟨by subst e1 e2; rfl, h⟩

theorem ccAddress_starts : Starts ccAddress := struct_starts 'A' "ddress".toList (by decide) (by decide)

theorem ccTimes_delim : Delim ccTimes := by
  rintro ⟨a1, a2, a3, a4⟩ ⟨b1, b2, b3, b4⟩ r r' hr hr' h
  simp only [ccTimes, struct, field, commas, List.append_assoc] at h
  obtain ⟨e1, h⟩ := field_step u32_delim _ (struct_open h)
  obtain ⟨e2, h⟩ := field_step u32_delim _ h
  obtain ⟨e3, h⟩ := field_step u32_delim _ h
  obtain ⟨e4, h⟩ := field_last u32_delim _ h
  exact ⟨by subst e1 e2 e3 e4; rfl, h⟩

theorem ccPrincipal_delim : Delim ccPrincipal := by
  rintro ⟨a1, a2, a3⟩ ⟨b1, b2, b3⟩ r r' hr hr' h
  simp only [ccPrincipal, struct, field, commas, List.append_assoc] at h
  obtain ⟨e1, h⟩ := field_step u32_delim _ (struct_open h)
  obtain ⟨e2, h⟩ := field_step cos_delim _ h
  obtain ⟨e3, h⟩ := field_last (vec_delim cos_delim cos_starts) _ h
  exact ⟨by subst e1 e2 e3; rfl, h⟩

theorem ccHeader_delim : Delim ccHeader := by
  rintro ⟨a1, a2⟩ ⟨b1, b2⟩ r r' hr hr' h
  simp only [ccHeader, struct, field, commas, List.append_assoc] at h
  obtain ⟨e1, h⟩ := field_step u16_delim _ (struct_open h)
  obtain ⟨e2, h⟩ := field_last bytes_delim _ h
  exact ⟨by subst e1 e2; rfl, h⟩

theorem ccCredential_delim : Delim ccCredential := by
  rintro ⟨a1, a2, a3, a4, a5, a6, a7, a8, a9, a10⟩ ⟨b1, b2, b3, b4, b5, b6, b7, b8, b9, b10⟩ r r' hr hr' h
  simp only [ccCredential, struct, field, commas] at h
  simp only [List.append_assoc] at h
  obtain ⟨e1, h⟩ := field_step ccPrincipal_delim _ (struct_open h)
  obtain ⟨e2, h⟩ := field_step ccPrincipal_delim _ h
  obtain ⟨e3, h⟩ := field_step ccKeyBlock_delim _ h
  obtain ⟨e4, h⟩ := field_step ccTimes_delim _ h
  obtain ⟨e5, h⟩ := field_step u8_delim _ h
  obtain ⟨e6, h⟩ := field_step u32_delim _ h
  obtain ⟨e7, h⟩ := field_step (vec_delim ccAddress_delim ccAddress_starts) _ h
  obtain ⟨e8, h⟩ := field_step (vec_delim ccAddress_delim ccAddress_starts) _ h
  obtain ⟨e9, h⟩ := field_step cos_delim _ h
  obtain ⟨e10, h⟩ := field_last cos_delim _ h
  exact ⟨by subst e1 e2 e3 e4 e5 e6 e7 e8 e9 e10; rfl, h⟩

theorem ccCredential_starts : Starts ccCredential := struct_starts 'C' "redential".toList (by decide) (by decide)

theorem ccache_delim : Delim ccache := by
  rintro ⟨a1, a2, a3, a4⟩ ⟨b1, b2, b3, b4⟩ r r' hr hr' h
  simp only [ccache, struct, field, commas, List.append_assoc] at h
  obtain ⟨e1, h⟩ := field_step u16_delim _ (struct_open h)
  obtain ⟨e2, h⟩ := field_step ccHeader_delim _ h
  obtain ⟨e3, h⟩ := field_step ccPrincipal_delim _ h
  obtain ⟨e4, h⟩ := field_last (vec_delim ccCredential_delim ccCredential_starts) _ h
  exact ⟨by subst e1 e2 e3 e4; rfl, h⟩

theorem ktKeyBlock_delim : Delim ktKeyBlock := by
  rintro ⟨a1, a2⟩ ⟨b1, b2⟩ r r' hr hr' h
  simp only [ktKeyBlock, struct, field, commas, List.append_assoc] at h
  obtain ⟨e1, h⟩ := field_step u16_delim _ (struct_open h)
  obtain ⟨e2, h⟩ := field_last bytes_delim _ h
  exact ⟨by subst e1 e2; rfl, h⟩

theorem ktEntry_delim : Delim ktEntry := by
  rintro ⟨a1, a2, a3, a4, a5, a6, a7⟩ ⟨b1, b2, b3, b4, b5, b6, b7⟩ r r' hr hr' h
  simp only [ktEntry, struct, field, commas, List.append_assoc] at h
  obtain ⟨e1, h⟩ := field_step cos_delim _ (struct_open h)
  obtain ⟨e2, h⟩ := field_step (vec_delim cos_delim cos_starts) _ h
  obtain ⟨e3, h⟩ := field_step u32_delim _ h
  obtain ⟨e4, h⟩ := field_step u32_delim _ h
  obtain ⟨e5, h⟩ := field_step u8_delim _ h
  obtain ⟨e6, h⟩ := field_step ktKeyBlock_delim _ h
  obtain ⟨e7, h⟩ := field_last (opt_delim u32_delim) _ h
  exact ⟨by subst e1 e2 e3 e4 e5 e6 e7; rfl, h⟩

theorem ktEntry_starts : Starts ktEntry := struct_starts 'K' "eytabEntry".toList (by decide) (by decide)

theorem keytab_delim : Delim keytab := by
  rintro ⟨a1, a2, a3⟩ ⟨b1, b2, b3⟩ r r' hr hr' h
  simp only [keytab, struct, field, commas, List.append_assoc] at h
  obtain ⟨e1, h⟩ := field_step u8_delim _ (struct_open h)
  obtain ⟨e2, h⟩ := field_step u8_delim _ h
  obtain ⟨e3, h⟩ := field_last (vec_delim ktEntry_delim ktEntry_starts) _ h
  exact ⟨by subst e1 e2 e3; rfl, h⟩

theorem Delim.inj {α} {f : α → Text} (hf : Delim f) {a b : α} (h : f a = f b) : a = b :=
  (hf a b [] [] noDigit_nil noDigit_nil (by rw [h])).1

/-! ### What a text shows -/

theorem commas_infix {t : Text} {ts : List Text} (h : t ∈ ts) : t <:+: commas ts := by
  induction ts with
  | nil => cases h
  | cons u us ih =>
    rcases List.mem_cons.1 h with rfl | h
    · cases us with
      | nil => exact List.infix_rfl
      | cons v vs => exact ⟨[], _, rfl⟩
    · cases us with
      | nil => cases h
      | cons v vs =>
        obtain ⟨a, b, hab⟩ := ih h
        exact ⟨u ++ (", ".toList ++ a), b, by simp only [commas] at hab ⊢; rw [← hab]; simp only [List.append_assoc]⟩

theorem struct_infix {t : Text} {n : String} {fs : List Text} (m : String) (h : field m t ∈ fs) : t <:+: struct n fs := by
  have h1 : t <:+: field m t := ⟨m.toList ++ ": ".toList, [], by simp [field]⟩
  have h2 : commas fs <:+: struct n fs := ⟨n.toList ++ " { ".toList, " }".toList, by simp [struct]⟩
  exact (h1.trans (commas_infix h)).trans h2

theorem vec_infix {α} (f : α → Text) {l : List α} {a : α} (h : a ∈ l) : f a <:+: vec f l := by
  have h2 : commas (l.map f) <:+: vec f l := ⟨['['], [']'], by simp [vec]⟩
  exact (commas_infix (List.mem_map_of_mem h)).trans h2

/-! ### Specification -/

/-- the bytes can be read in the text: they stand there in decimal, between brackets, with commas between them -/
def Shows (t : Text) (b : Bytes) : Prop :=
  ∃ before after : Text, t = before ++ ('[' :: (commas (b.map fun x => (Nat.repr x.toNat).toList) ++ [']'])) ++ after

theorem shows_of_infix {t : Text} {b : Bytes} (h : bytes b <:+: t) : Shows t b := by
  obtain ⟨x, y, h⟩ := h
  refine ⟨x, y, h.symm.trans ?_⟩
  simp [bytes, vec, num]

/-! ### C107 -/

/-- C107, violated: the debug output of a cache shows every session key in it; it even determines the whole cache, tickets and
all: no two caches print alike. -/
theorem c107_cache :
    (∀ k : CC.CCache, ∀ c ∈ k.credentials, Shows (ccache k) c.key.keyvalue ∧ Shows (ccache k) c.ticket) ∧
    (∀ k k' : CC.CCache, ccache k = ccache k' → k = k') := by
  refine ⟨fun k c hc => ?_, fun _ _ h => ccache_delim.inj h⟩
  have h1 : ccCredential c <:+: ccache k := (vec_infix ccCredential hc).trans (struct_infix "credentials" (by simp))
  have h2 : bytes c.key.keyvalue <:+: ccKeyBlock c.key := struct_infix "keyvalue" (by simp)
  have h3 : ccKeyBlock c.key <:+: ccCredential c := struct_infix "key" (by simp)
  have h4 : bytes c.ticket <:+: cos c.ticket := struct_infix "data" (by simp)
  have h5 : cos c.ticket <:+: ccCredential c := struct_infix "ticket" (by simp)
  exact ⟨shows_of_infix ((h2.trans h3).trans h1), shows_of_infix ((h4.trans h5).trans h1)⟩

/-- C107, violated: the debug output of a keytab shows every key in it, and determines the whole keytab. -/
theorem c107_keytab :
    (∀ k : KT.Keytab, ∀ e ∈ k.entries, Shows (keytab k) e.key.keyvalue) ∧
    (∀ k k' : KT.Keytab, keytab k = keytab k' → k = k') := by
  refine ⟨fun k e he => ?_, fun _ _ h => keytab_delim.inj h⟩
  have h1 : ktEntry e <:+: keytab k := (vec_infix ktEntry he).trans (struct_infix "entries" (by simp))
  have h2 : bytes e.key.keyvalue <:+: ktKeyBlock e.key := struct_infix "keyvalue" (by simp)
  have h3 : ktKeyBlock e.key <:+: ktEntry e := struct_infix "key" (by simp)
  exact shows_of_infix ((h2.trans h3).trans h1)

/-- C107, violated: the debug output of a credential, and of a warehouse, shows the session keys, whatever is printed for the
other parts. -/
theorem c107_credentials (O : Other) (c : Kb.Credential) :
    Shows (credential O c) c.client_part.key.keyvalue ∧
    ∀ w : Kb.Warehouse, c ∈ w.credentials → Shows (warehouse O w) c.client_part.key.keyvalue := by
  have h1 : bytes c.client_part.key.keyvalue <:+: encryptionKey c.client_part.key := struct_infix "keyvalue" (by simp)
  have h2 : encryptionKey c.client_part.key <:+: encAsRepPart O c.client_part := struct_infix "key" (by simp)
  have h3 : encAsRepPart O c.client_part <:+: credential O c := struct_infix "client_part" (by simp)
  have h := (h1.trans h2).trans h3
  refine ⟨shows_of_infix h, fun w hw => shows_of_infix (h.trans ?_)⟩
  exact (vec_infix (credential O) hw).trans (struct_infix "credentials" (by simp))

/-- C107. Nothing of a key block is left out: different ones print differently. -/
theorem c107_key_block (k k' : CC.KeyBlock) (h : ccKeyBlock k = ccKeyBlock k') : k = k' := ccKeyBlock_delim.inj h

/-- the texts, literally -/
example : String.ofList (ccKeyBlock ⟨18, 0, [1, 20, 255]⟩) = "KeyBlock { keytype: 18, etype: 0, keyvalue: [1, 20, 255] }" ∧
    String.ofList (ktKeyBlock ⟨17, []⟩) = "KeyBlock { keytype: 17, keyvalue: [] }" ∧
    String.ofList (encryptionKey ⟨-135, [9]⟩) = "EncryptionKey { keytype: -135, keyvalue: [9] }" := by decide +kernel

/-- caches, keytabs and warehouses with keys in them exist -/
example : (CC.sampleCache.credentials.map fun c => c.key.keyvalue.length) ≠ [] ∧ KT.sampleKeytab.entries ≠ [] ∧
    Kb.exWarehouse.credentials ≠ [] ∧ (ccache CC.sampleCache).length > 500 := by decide +kernel

end Verif.Dbg
