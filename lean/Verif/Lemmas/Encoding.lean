import Verif.Spec.Encoding
import Verif.Lemmas.Serialize

/-! Encodings of vectors, products and structures. -/

namespace GS
variable {α β : Type}

/-- What is read as what: `R` relates values and strings, `valid` describes the check. -/
structure Codec.Enc (c : Codec α) (R : Compress → α → Bytes → Prop) (valid : α → Prop) : Prop where
  de : ∀ m v bs x rest, c.de m v bs = .ok (x, rest) ↔ ∃ used, bs = used ++ rest ∧ R m x used ∧ (v = .Yes → valid x)
  batch : ∀ l, c.batchCheck l = .ok () ↔ ∀ x ∈ l, valid x

theorem Codec.Orderly.enc {c : Codec α} (h : c.Orderly) : c.Enc (fun m => c.Reads m .No) c.Valid where
  de m v bs x rest := by
    have hno : ∀ {bs rest}, c.de m .No bs = .ok (x, rest) ↔ ∃ used, bs = used ++ rest ∧ c.Reads m .No x used := by
      intro bs rest
      constructor
      · exact h.stream m .No bs x rest
      · rintro ⟨used, rfl, hr⟩; exact hr rest
    cases v with
    | No => simp [hno]
    | Yes =>
      rw [h.validate, hno]
      constructor
      · rintro ⟨⟨used, h1, h2⟩, h3⟩; exact ⟨used, h1, h2, fun _ => h3⟩
      · rintro ⟨used, h1, h2, h3⟩; exact ⟨⟨used, h1, h2⟩, h3 rfl⟩
  batch := h.batch

theorem Codec.Lawful.orderly {c : Codec α} (h : c.Lawful) : c.Orderly where
  stream := h.stream
  validate := h.validate
  batch := h.batch

theorem Codec.Lawful.returns {c : Codec α} (h : c.Lawful) (m : Compress) (x : α) : c.Returns m x :=
  fun rest => h.round m .No x rest (by simp)

section loop
variable {c : Codec α} {R : Compress → α → Bytes → Prop} {valid : α → Prop}

theorem deLoop_enc (h : c.Enc R valid) (m : Compress) (n : Nat) (bs : Bytes) (l : List α) (rest : Bytes) :
    deLoop c m n bs = .ok (l, rest) ↔ l.length = n ∧ ∃ used, bs = used ++ rest ∧ EachIn (R m) l used := by
  induction n generalizing bs l with
  | zero =>
    simp only [deLoop, Except.ok.injEq, Prod.mk.injEq]
    constructor
    · rintro ⟨rfl, rfl⟩; exact ⟨rfl, [], rfl, rfl⟩
    · rintro ⟨hl, used, rfl, hu⟩
      obtain rfl := List.length_eq_zero_iff.mp hl
      rw [EachIn] at hu
      simp [hu]
  | succ n ih =>
    simp only [deLoop, ser_bind_ok, ser_pure, Except.ok.injEq, Prod.mk.injEq, Prod.exists]
    constructor
    · rintro ⟨a, b1, h1, l', b2, h2, rfl, rfl⟩
      obtain ⟨u1, rfl, r1, -⟩ := (h.de _ _ _ _ _).mp h1
      obtain ⟨e2, u2, rfl, r2⟩ := (ih _ _).mp h2
      exact ⟨by simp [e2], u1 ++ u2, by simp, u1, u2, rfl, r1, r2⟩
    · rintro ⟨hl, used, rfl, hu⟩
      cases l with
      | nil => simp at hl
      | cons a l =>
        obtain ⟨u1, u2, rfl, r1, r2⟩ := hu
        refine ⟨a, u2 ++ rest, (h.de _ _ _ _ _).mpr ⟨u1, by simp, r1, by simp⟩, l, rest, (ih _ _).mpr ⟨by simpa using hl, u2, rfl, r2⟩, rfl, rfl⟩

theorem vec_enc (h : c.Enc R valid) : (vecCodec c).Enc (fun m => VecIn (R m)) (fun l => ∀ x ∈ l, valid x) where
  de m v bs l rest := by
    have hno : ∀ {l : List α}, (vecCodec c).de m .No bs = .ok (l, rest) ↔ ∃ used, bs = used ++ rest ∧ VecIn (R m) l used := by
      intro l
      rw [vec_de_no]
      constructor
      · rintro ⟨n, b, h1, h2⟩
        obtain ⟨e, u2, rfl, hu⟩ := (deLoop_enc h _ _ _ _ _).mp h2
        have hc := u64_canonical _ _ _ _ _ h1
        have hf := (u64_good.stream _ _ _ _ _ h1).1
        subst e
        exact ⟨leBytes 8 l.length ++ u2, by rw [hc]; simp [u64Codec], hf, u2, rfl, hu⟩
      · rintro ⟨used, rfl, hf, u2, rfl, hu⟩
        refine ⟨l.length, u2 ++ rest, ?_, (deLoop_enc h _ _ _ _ _).mpr ⟨rfl, u2, rfl, hu⟩⟩
        rw [List.append_assoc]
        exact u64_good.round m .No l.length _ hf (by simp)
    cases v with
    | No => simp [hno]
    | Yes =>
      rw [vec_de_yes h.batch, hno]
      constructor
      · rintro ⟨⟨used, h1, h2⟩, h3⟩; exact ⟨used, h1, h2, fun _ => h3⟩
      · rintro ⟨used, h1, h2, h3⟩; exact ⟨⟨used, h1, h2⟩, h3 rfl⟩
  batch ls := by
    show c.batchCheck ls.flatten = .ok () ↔ _
    rw [h.batch]
    simp only [List.mem_flatten]
    exact ⟨fun H l hl x hx => H x ⟨l, hl, hx⟩, fun H x ⟨l, hl, hx⟩ => H l hl x hx⟩

theorem Codec.Enc.reads (h : c.Enc R valid) {m : Compress} {x : α} {bs : Bytes} : c.Reads m .No x bs ↔ R m x bs := by
  constructor
  · intro hr
    obtain ⟨used, h1, h2, -⟩ := (h.de _ _ _ _ _).mp (hr [])
    rw [List.append_nil, List.append_nil] at h1
    rwa [h1]
  · exact fun hr rest => (h.de _ _ _ _ _).mpr ⟨bs, rfl, hr, by simp⟩

theorem eachIn_ser {R : α → Bytes → Prop} {f : α → Bytes} {l : List α} (h : ∀ a ∈ l, R a (f a)) :
    EachIn R l (l.map f).flatten := by
  induction l with
  | nil => rfl
  | cons a l ih => exact ⟨f a, (l.map f).flatten, rfl, h a (by simp), ih fun b hb => h b (by simp [hb])⟩

theorem vecIn_ser {R : α → Bytes → Prop} {m : Compress} {l : List α} (hf : Fits64 l) (h : ∀ a ∈ l, R a (c.ser m a)) :
    VecIn R l ((vecCodec c).ser m l) := ⟨hf, _, rfl, eachIn_ser h⟩

theorem vec_returns (h : c.Enc R valid) {m : Compress} {l : List α} (hf : Fits64 l) (hr : ∀ a ∈ l, c.Returns m a) :
    (vecCodec c).Returns m l := (vec_enc h).reads.mpr (vecIn_ser hf fun a ha => h.reads.mp (hr a ha))

theorem eachIn_other {S : α → Bytes → Prop} {f : α → Bytes} {l : List α} (h : ∀ a ∈ l, S a (f a)) {a : α} (ha : a ∈ l) {b : Bytes}
    (hb : S a b) (hne : b ≠ f a) : ∃ bs, EachIn S l bs ∧ bs ≠ (l.map f).flatten := by
  induction l with
  | nil => simp at ha
  | cons a' l ih =>
    rcases List.mem_cons.mp ha with rfl | ha
    · refine ⟨b ++ (l.map f).flatten, ⟨b, _, rfl, hb, eachIn_ser fun x hx => h x (by simp [hx])⟩, fun e => hne ?_⟩
      rw [List.map_cons, List.flatten_cons] at e
      exact List.append_cancel_right e
    · obtain ⟨bs, h1, h2⟩ := ih (fun x hx => h x (by simp [hx])) ha
      refine ⟨f a' ++ bs, ⟨_, _, rfl, h a' (by simp), h1⟩, fun e => h2 ?_⟩
      rw [List.map_cons, List.flatten_cons] at e
      exact List.append_cancel_left e

theorem eachIn_unique {S : α → Bytes → Prop} {f : α → Bytes} {l : List α} (h : ∀ a ∈ l, ∀ b, S a b → b = f a) {bs : Bytes}
    (hb : EachIn S l bs) : bs = (l.map f).flatten := by
  induction l generalizing bs with
  | nil => exact hb
  | cons a l ih =>
    obtain ⟨b, b', rfl, h1, h2⟩ := hb
    rw [List.map_cons, List.flatten_cons, h a (by simp) b h1, ih (fun x hx => h x (by simp [hx])) h2]

theorem vec_unique (h : c.Enc R valid) {m : Compress} {l : List α} (hf : Fits64 l) (hr : ∀ a ∈ l, c.Returns m a) :
    (vecCodec c).Unique m l ↔ ∀ a ∈ l, c.Unique m a := by
  constructor
  · intro hu a ha b hb
    by_contra hne
    obtain ⟨bs, h1, h2⟩ := eachIn_other (fun x hx => h.reads.mp (hr x hx)) ha (h.reads.mp hb) hne
    have := hu (leBytes 8 l.length ++ bs) ((vec_enc h).reads.mpr ⟨hf, bs, rfl, h1⟩)
    exact h2 (List.append_cancel_left this)
  · intro hu bs hb
    obtain ⟨_, b, rfl, h1⟩ := (vec_enc h).reads.mp hb
    rw [eachIn_unique (fun a ha b hb => hu a ha b (h.reads.mpr hb)) h1]
    rfl

theorem Codec.Enc.returnsSome (h : c.Enc R valid) (x : α) (hx : ∀ m, R m x (c.ser m x)) : c.ReturnsSome :=
  ⟨x, fun m rest => (h.de _ _ _ _ _).mpr ⟨_, rfl, hx m, by simp⟩⟩

theorem Codec.Enc.canonical_iff (h : c.Enc R valid) : c.Canonical ↔ ∀ m x bs, R m x bs → bs = c.ser m x := by
  constructor
  · intro hc m x bs hr
    have := hc m .No (bs ++ []) x [] ((h.de _ _ _ _ _).mpr ⟨bs, rfl, hr, by simp⟩)
    simpa using this
  · intro hc m v bs x rest hd
    obtain ⟨used, rfl, hr, -⟩ := (h.de _ _ _ _ _).mp hd
    rw [hc m x used hr]

theorem vec_canonical_iff (h : c.Enc R valid) : (vecCodec c).Canonical ↔ c.Canonical := by
  refine ⟨fun hc => ?_, vec_canonical⟩
  rw [(vec_enc h).canonical_iff] at hc
  rw [h.canonical_iff]
  intro m x bs hr
  have h1 := hc m [x] (leBytes 8 1 ++ bs) ⟨by simp [Fits64], bs, rfl, bs, [], by simp, hr, rfl⟩
  simpa [vecCodec, u64Codec] using h1

theorem vec_returnsSome (h : c.Enc R valid) : (vecCodec c).ReturnsSome :=
  (vec_enc h).returnsSome [] fun _ => ⟨by simp [Fits64], [], rfl, rfl⟩

end loop

section prod
variable {c : Codec α} {R : Compress → α → Bytes → Prop} {valid : α → Prop}
  {d : Codec β} {S : Compress → β → Bytes → Prop} {valid' : β → Prop}

theorem prod_enc (h : c.Enc R valid) (h' : d.Enc S valid') :
    (prodCodec c d).Enc (fun m p bs => ∃ b0 b1, bs = b0 ++ b1 ∧ R m p.1 b0 ∧ S m p.2 b1) (fun p => valid p.1 ∧ valid' p.2) where
  de m v bs p rest := by
    rw [prod_de]
    constructor
    · rintro ⟨b, h1, h2⟩
      obtain ⟨u1, rfl, r1, k1⟩ := (h.de _ _ _ _ _).mp h1
      obtain ⟨u2, rfl, r2, k2⟩ := (h'.de _ _ _ _ _).mp h2
      exact ⟨u1 ++ u2, by simp, ⟨u1, u2, rfl, r1, r2⟩, fun e => ⟨k1 e, k2 e⟩⟩
    · rintro ⟨used, rfl, ⟨u1, u2, rfl, r1, r2⟩, k⟩
      exact ⟨u2 ++ rest, (h.de _ _ _ _ _).mpr ⟨u1, by simp, r1, fun e => (k e).1⟩,
        (h'.de _ _ _ _ _).mpr ⟨u2, rfl, r2, fun e => (k e).2⟩⟩
  batch l := by
    simp only [prodCodec, unit_bind_ok, h.batch, h'.batch, List.forall_mem_map]
    exact ⟨fun H x hx => ⟨H.1 x hx, H.2 x hx⟩, fun H => ⟨fun x hx => (H x hx).1, fun x hx => (H x hx).2⟩⟩

/-- The strings related to a value are those read as it. -/
theorem Codec.Enc.returns (h : c.Enc R valid) {m : Compress} {x : α} (hr : c.Returns m x) : R m x (c.ser m x) := by
  obtain ⟨used, h1, h2, -⟩ := (h.de _ _ _ _ _).mp (hr [])
  rw [List.append_nil, List.append_nil] at h1
  rwa [h1]

theorem prod_returns (h : c.Enc R valid) (h' : d.Enc S valid') {m : Compress} {p : α × β} (hr : c.Returns m p.1) (hr' : d.Returns m p.2) :
    (prodCodec c d).Returns m p := (prod_enc h h').reads.mpr ⟨_, _, rfl, h.reads.mp hr, h'.reads.mp hr'⟩

theorem prod_unique (h : c.Enc R valid) (h' : d.Enc S valid') {m : Compress} {p : α × β} (hr : c.Returns m p.1) (hr' : d.Returns m p.2) :
    (prodCodec c d).Unique m p ↔ c.Unique m p.1 ∧ d.Unique m p.2 := by
  constructor
  · intro hu
    constructor
    · intro b hb
      exact List.append_cancel_right (hu _ ((prod_enc h h').reads.mpr ⟨b, _, rfl, h.reads.mp hb, h'.reads.mp hr'⟩))
    · intro b hb
      exact List.append_cancel_left (hu _ ((prod_enc h h').reads.mpr ⟨_, b, rfl, h.reads.mp hr, h'.reads.mp hb⟩))
  · rintro ⟨h1, h2⟩ bs hb
    obtain ⟨b0, b1, rfl, k0, k1⟩ := (prod_enc h h').reads.mp hb
    rw [h1 b0 (h.reads.mpr k0), h2 b1 (h'.reads.mpr k1)]
    rfl

theorem prod_canonical_iff (h : c.Enc R valid) (h' : d.Enc S valid') (hs : c.ReturnsSome) (hs' : d.ReturnsSome) :
    (prodCodec c d).Canonical ↔ c.Canonical ∧ d.Canonical := by
  refine ⟨fun hc => ?_, fun hc => prod_canonical hc.1 hc.2⟩
  rw [(prod_enc h h').canonical_iff] at hc
  rw [h.canonical_iff, h'.canonical_iff]
  obtain ⟨a, ha⟩ := hs
  obtain ⟨b, hb⟩ := hs'
  constructor
  · intro m x bs hr
    exact List.append_cancel_right (hc m (x, b) _ ⟨bs, _, rfl, hr, h'.returns (hb m)⟩)
  · intro m x bs hr
    exact List.append_cancel_left (hc m (a, x) _ ⟨_, bs, rfl, h.returns (ha m), hr⟩)

theorem prod_returnsSome (h : c.Enc R valid) (h' : d.Enc S valid') (hs : c.ReturnsSome) (hs' : d.ReturnsSome) :
    (prodCodec c d).ReturnsSome := by
  obtain ⟨a, ha⟩ := hs
  obtain ⟨b, hb⟩ := hs'
  exact (prod_enc h h').returnsSome (a, b) fun m => ⟨_, _, rfl, h.returns (ha m), h'.returns (hb m)⟩

variable {mk : α → β} {fields : β → α}

theorem struct_enc (h1 : ∀ a, fields (mk a) = a) (h2 : ∀ b, mk (fields b) = b) (h : c.Enc R valid)
    {S : Compress → β → Bytes → Prop} {valid' : β → Prop} (hR : ∀ m b bs, S m b bs ↔ R m (fields b) bs)
    (hv : ∀ b, valid' b ↔ valid (fields b)) : (structCodec mk fields c).Enc S valid' where
  de m v bs x rest := by rw [struct_de h1 h2, h.de]; simp only [hR, hv]
  batch l := by
    show c.batchCheck (l.map fields) = .ok () ↔ _
    rw [h.batch, List.forall_mem_map]
    exact forall₂_congr fun x _ => (hv x).symm

theorem struct_unique (h1 : ∀ a, fields (mk a) = a) (h2 : ∀ b, mk (fields b) = b) {m : Compress} {x : β} :
    (structCodec mk fields c).Unique m x ↔ c.Unique m (fields x) :=
  forall_congr' fun _ => imp_congr_left (forall_congr' fun _ => struct_de h1 h2)

theorem struct_returns (h1 : ∀ a, fields (mk a) = a) (h2 : ∀ b, mk (fields b) = b) {m : Compress} {x : β} :
    (structCodec mk fields c).Returns m x ↔ c.Returns m (fields x) := forall_congr' fun _ => struct_de h1 h2

theorem struct_canonical_iff (h1 : ∀ a, fields (mk a) = a) (h2 : ∀ b, mk (fields b) = b) :
    (structCodec mk fields c).Canonical ↔ c.Canonical := by
  refine ⟨fun hc m v bs x rest hd => ?_, struct_canonical h1 h2⟩
  have := hc m v bs (mk x) rest ((struct_de h1 h2).mpr (by rw [h1]; exact hd))
  simpa [structCodec, h1] using this

theorem struct_returnsSome (h1 : ∀ a, fields (mk a) = a) (h2 : ∀ b, mk (fields b) = b) (hs : c.ReturnsSome) :
    (structCodec mk fields c).ReturnsSome := by
  obtain ⟨a, ha⟩ := hs
  refine ⟨mk a, fun m rest => (struct_de h1 h2).mpr ?_⟩
  have := ha m rest
  simpa [structCodec, h1] using this

end prod
end GS
