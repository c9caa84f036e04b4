import Verif.Spec.Serialize
import Mathlib.Tactic.Ring
import Mathlib.Data.List.Basic

/-! Closure of the codec laws under vectors, products and structures. -/

namespace GS
variable {α β : Type}

theorem ser_bind_ok {γ δ : Type} {x : Except SerErr γ} {f : γ → Except SerErr δ} {b : δ} :
    (x >>= f) = .ok b ↔ ∃ a, x = .ok a ∧ f a = .ok b := by
  cases x <;> simp [bind, Except.bind]

theorem ser_pure {γ : Type} (a : γ) : (pure a : Except SerErr γ) = .ok a := rfl
theorem ser_ok_bind {γ δ : Type} (a : γ) (f : γ → Except SerErr δ) : ((Except.ok a : Except SerErr γ) >>= f) = f a := rfl

theorem length_leBytes (k n : Nat) : (leBytes k n).length = k := by
  induction k generalizing n with
  | zero => rfl
  | succ k ih => simp [leBytes, ih]

theorem leNat_leBytes (k n : Nat) (h : n < 256 ^ k) : leNat (leBytes k n) = n := by
  induction k generalizing n with
  | zero => simp at h; simp [leBytes, leNat, h]
  | succ k ih =>
    have h1 : n / 256 < 256 ^ k := by
      rw [Nat.div_lt_iff_lt_mul (by norm_num)]
      rw [pow_succ] at h; exact h
    have h2 : (UInt8.ofNat (n % 256)).toNat = n % 256 := by
      simp
    rw [leBytes, leNat, ih _ h1, h2]
    omega

theorem leNat_lt (b : Bytes) : leNat b < 256 ^ b.length := by
  induction b with
  | nil => simp [leNat]
  | cons b l ih =>
    have := b.toNat_lt
    rw [leNat, List.length_cons, pow_succ]
    omega

theorem leBytes_leNat (b : Bytes) : leBytes b.length (leNat b) = b := by
  induction b with
  | nil => rfl
  | cons b l ih =>
    have hb := b.toNat_lt
    have h1 : (b.toNat + 256 * leNat l) % 256 = b.toNat := by omega
    have h2 : (b.toNat + 256 * leNat l) / 256 = leNat l := by omega
    rw [leNat, List.length_cons, leBytes, h1, h2, ih]
    simp

theorem readExact_append (b rest : Bytes) : readExact b.length (b ++ rest) = .ok (b, rest) := by
  simp [readExact]

theorem readExact_iff {k : Nat} {bs b rest : Bytes} :
    readExact k bs = .ok (b, rest) ↔ bs = b ++ rest ∧ b.length = k := by
  constructor
  · intro h
    unfold readExact at h
    split_ifs at h with hl
    simp only [Except.ok.injEq, Prod.mk.injEq] at h
    obtain ⟨rfl, rfl⟩ := h
    exact ⟨(List.take_append_drop k bs).symm, by simp; omega⟩
  · rintro ⟨rfl, rfl⟩
    exact readExact_append b rest

/-- The laws, for values with `fits`, with `valid` describing what is checked. -/
structure Codec.Good (c : Codec α) (fits valid : α → Prop) : Prop where
  round : ∀ m v x rest, fits x → (v = .Yes → valid x) → c.de m v (c.ser m x ++ rest) = .ok (x, rest)
  size : ∀ m x, (c.ser m x).length = c.size m x
  stream : ∀ m v bs x rest, c.de m v bs = .ok (x, rest) →
    fits x ∧ ∃ used, bs = used ++ rest ∧ ∀ rest', c.de m v (used ++ rest') = .ok (x, rest')
  validate : ∀ m bs x rest, c.de m .Yes bs = .ok (x, rest) ↔ c.de m .No bs = .ok (x, rest) ∧ valid x
  check : ∀ x, c.check x = .ok () ↔ valid x
  batch : ∀ l, c.batchCheck l = .ok () ↔ ∀ x ∈ l, valid x

theorem Codec.Lawful.good {c : Codec α} (h : c.Lawful) : c.Good (fun _ => True) c.Valid where
  round m v x rest _ hv := h.round m v x rest hv
  size := h.size
  stream m v bs x rest hd := ⟨trivial, h.stream m v bs x rest hd⟩
  validate := h.validate
  check _ := Iff.rfl
  batch := h.batch

theorem loopCheck_ok (l : List α) : loopCheck (fun _ => .ok ()) l = .ok () := by
  induction l with
  | nil => rfl
  | cons a l ih => simpa [loopCheck, ser_ok_bind] using ih

theorem u64_de {m v} {bs rest : Bytes} {n : Nat} :
    u64Codec.de m v bs = .ok (n, rest) ↔ ∃ b, bs = b ++ rest ∧ b.length = 8 ∧ leNat b = n := by
  simp only [u64Codec, ser_bind_ok, ser_pure, Except.ok.injEq, Prod.mk.injEq, Prod.exists]
  constructor
  · rintro ⟨b, r, h, rfl, rfl⟩
    obtain ⟨h1, h2⟩ := readExact_iff.mp h
    exact ⟨b, h1, h2, rfl⟩
  · rintro ⟨b, h1, h2, rfl⟩
    exact ⟨b, rest, readExact_iff.mpr ⟨h1, h2⟩, rfl, rfl⟩

theorem u64_good : u64Codec.Good (fun n => n < 2 ^ 64) (fun _ => True) where
  round m v n rest hn _ := u64_de.mpr ⟨leBytes 8 n, rfl, length_leBytes 8 n, leNat_leBytes 8 n (by norm_num at *; exact hn)⟩
  size m n := length_leBytes 8 n
  stream m v bs n rest h := by
    obtain ⟨b, h1, h2, h3⟩ := u64_de.mp h
    refine ⟨?_, b, h1, fun rest' => u64_de.mpr ⟨b, rfl, h2, h3⟩⟩
    have := leNat_lt b
    rw [h2, h3] at this
    norm_num at this ⊢
    exact this
  validate m bs n rest := by rw [u64_de, u64_de]; simp
  check _ := by simp [u64Codec]
  batch l := by simp [u64Codec, loopCheck_ok]

theorem u64_canonical : u64Codec.Canonical := by
  intro m v bs n rest h
  obtain ⟨b, h1, h2, h3⟩ := u64_de.mp h
  rw [h1, ← h3]
  show b ++ rest = leBytes 8 (leNat b) ++ rest
  rw [← h2, leBytes_leNat]

section loop
variable {c : Codec α} {fits valid : α → Prop}

theorem deLoop_round (h : c.Good fits valid) (m : Compress) (l : List α) (hf : ∀ x ∈ l, fits x) (rest : Bytes) :
    deLoop c m l.length ((l.map (c.ser m)).flatten ++ rest) = .ok (l, rest) := by
  induction l with
  | nil => rfl
  | cons a l ih =>
    simp only [List.length_cons, List.map_cons, List.flatten_cons, List.append_assoc, deLoop]
    rw [h.round m .No a _ (hf a (by simp)) (by simp), ser_ok_bind]
    simp only [ih fun x hx => hf x (by simp [hx]), ser_ok_bind, ser_pure]

theorem deLoop_stream (h : c.Good fits valid) (m : Compress) (n : Nat) (bs : Bytes) (l : List α) (rest : Bytes)
    (hd : deLoop c m n bs = .ok (l, rest)) :
    l.length = n ∧ (∀ x ∈ l, fits x) ∧
      ∃ used, bs = used ++ rest ∧ ∀ rest', deLoop c m n (used ++ rest') = .ok (l, rest') := by
  induction n generalizing bs l with
  | zero =>
    simp only [deLoop, Except.ok.injEq, Prod.mk.injEq] at hd
    obtain ⟨rfl, rfl⟩ := hd
    exact ⟨rfl, by simp, [], rfl, fun _ => rfl⟩
  | succ n ih =>
    simp only [deLoop, ser_bind_ok, ser_pure, Except.ok.injEq, Prod.mk.injEq, Prod.exists] at hd
    obtain ⟨a, b1, h1, l', b2, h2, rfl, rfl⟩ := hd
    obtain ⟨f1, used1, rfl, k1⟩ := h.stream _ _ _ _ _ h1
    obtain ⟨e2, f2, used2, rfl, k2⟩ := ih _ _ h2
    refine ⟨by simp [e2], ?_, used1 ++ used2, by simp, fun rest' => ?_⟩
    · intro x hx
      rcases List.mem_cons.mp hx with rfl | hx
      · exact f1
      · exact f2 x hx
    · rw [deLoop, List.append_assoc, k1, ser_ok_bind]
      simp only [k2, ser_ok_bind, ser_pure]

theorem deLoop_canonical (h : c.Canonical) (m : Compress) (n : Nat) (bs : Bytes) (l : List α) (rest : Bytes)
    (hd : deLoop c m n bs = .ok (l, rest)) : l.length = n ∧ bs = (l.map (c.ser m)).flatten ++ rest := by
  induction n generalizing bs l with
  | zero =>
    simp only [deLoop, Except.ok.injEq, Prod.mk.injEq] at hd
    obtain ⟨rfl, rfl⟩ := hd
    exact ⟨rfl, rfl⟩
  | succ n ih =>
    simp only [deLoop, ser_bind_ok, ser_pure, Except.ok.injEq, Prod.mk.injEq, Prod.exists] at hd
    obtain ⟨a, b1, h1, l', b2, h2, rfl, rfl⟩ := hd
    obtain ⟨e2, h3⟩ := ih _ _ h2
    refine ⟨by simp [e2], ?_⟩
    rw [h _ _ _ _ _ h1, h3]
    simp

theorem vec_de_no {m} {bs rest : Bytes} {l : List α} : (vecCodec c).de m .No bs = .ok (l, rest) ↔
    ∃ n b, u64Codec.de m .No bs = .ok (n, b) ∧ deLoop c m n b = .ok (l, rest) := by
  simp only [vecCodec, ser_bind_ok, ser_pure, Except.ok.injEq, Prod.mk.injEq, Prod.exists]
  constructor
  · rintro ⟨n, b, h1, l', b', h2, rfl, rfl⟩; exact ⟨n, b, h1, h2⟩
  · rintro ⟨n, b, h1, h2⟩; exact ⟨n, b, h1, _, _, h2, rfl, rfl⟩

theorem vec_de_yes (hb : ∀ l, c.batchCheck l = .ok () ↔ ∀ x ∈ l, valid x) {m} {bs rest : Bytes} {l : List α} :
    (vecCodec c).de m .Yes bs = .ok (l, rest) ↔ (vecCodec c).de m .No bs = .ok (l, rest) ∧ ∀ x ∈ l, valid x := by
  rw [vec_de_no, ← hb]
  simp only [vecCodec, ser_bind_ok, ser_pure, Except.ok.injEq, Prod.mk.injEq, Prod.exists]
  constructor
  · rintro ⟨n, b, h1, l', b', h2, u, h3, rfl, rfl⟩; exact ⟨⟨n, b, h1, h2⟩, h3⟩
  · rintro ⟨⟨n, b, h1, h2⟩, h3⟩; exact ⟨n, b, h1, _, _, h2, (), h3, rfl, rfl⟩

theorem vec_good (h : c.Good fits valid) :
    (vecCodec c).Good (fun l => Fits64 l ∧ ∀ x ∈ l, fits x) (fun l => ∀ x ∈ l, valid x) := by
  have hround : ∀ m l rest, (Fits64 l ∧ ∀ x ∈ l, fits x) →
      (vecCodec c).de m .No ((vecCodec c).ser m l ++ rest) = .ok (l, rest) := by
    intro m l rest hf
    rw [vec_de_no]
    refine ⟨l.length, (l.map (c.ser m)).flatten ++ rest, ?_, deLoop_round h m l hf.2 rest⟩
    rw [← u64_good.round m .No l.length _ hf.1 (by simp)]
    simp [vecCodec]
  have hstream : ∀ m bs l rest, (vecCodec c).de m .No bs = .ok (l, rest) → (Fits64 l ∧ ∀ x ∈ l, fits x) ∧
      ∃ used, bs = used ++ rest ∧ ∀ rest', (vecCodec c).de m .No (used ++ rest') = .ok (l, rest') := by
    intro m bs l rest hd
    obtain ⟨n, b, h1, h2⟩ := vec_de_no.mp hd
    obtain ⟨f1, used1, rfl, k1⟩ := u64_good.stream _ _ _ _ _ h1
    obtain ⟨e2, f2, used2, rfl, k2⟩ := deLoop_stream h _ _ _ _ _ h2
    refine ⟨⟨by rw [Fits64, e2]; exact f1, f2⟩, used1 ++ used2, by simp, fun rest' => ?_⟩
    exact vec_de_no.mpr ⟨n, used2 ++ rest', by rw [List.append_assoc]; exact k1 _, k2 rest'⟩
  refine ⟨?_, ?_, ?_, ?_, ?_, ?_⟩
  · intro m v l rest hf hv
    cases v with
    | No => exact hround m l rest hf
    | Yes => exact (vec_de_yes h.batch).mpr ⟨hround m l rest hf, hv rfl⟩
  · intro m l
    simp only [vecCodec, List.length_append, List.length_flatten, List.map_map]
    rw [show (u64Codec.ser m l.length).length = 8 from length_leBytes 8 _]
    congr 2
    exact List.map_congr_left fun x _ => h.size m x
  · intro m v bs l rest hd
    cases v with
    | No => exact hstream m bs l rest hd
    | Yes =>
      obtain ⟨h1, h2⟩ := (vec_de_yes h.batch).mp hd
      obtain ⟨f, used, e1, k⟩ := hstream m bs l rest h1
      exact ⟨f, used, e1, fun rest' => (vec_de_yes h.batch).mpr ⟨k rest', h2⟩⟩
  · exact fun m bs l rest => vec_de_yes h.batch
  · exact fun l => h.batch l
  · intro ls
    show c.batchCheck ls.flatten = .ok () ↔ _
    rw [h.batch]
    simp only [List.mem_flatten]
    exact ⟨fun H l hl x hx => H x ⟨l, hl, hx⟩, fun H x ⟨l, hl, hx⟩ => H l hl x hx⟩

theorem vec_canonical (h : c.Canonical) : (vecCodec c).Canonical := by
  have key : ∀ m bs l rest, (vecCodec c).de m .No bs = .ok (l, rest) → bs = (vecCodec c).ser m l ++ rest := by
    intro m bs l rest hd
    obtain ⟨n, b, h1, h2⟩ := vec_de_no.mp hd
    obtain ⟨e1, e2⟩ := deLoop_canonical h _ _ _ _ _ h2
    rw [u64_canonical _ _ _ _ _ h1, e2, ← e1]
    simp [vecCodec]
  intro m v bs l rest hd
  cases v with
  | No => exact key m bs l rest hd
  | Yes =>
    refine key m bs l rest ?_
    simp only [vecCodec, ser_bind_ok, ser_pure, Except.ok.injEq, Prod.mk.injEq, Prod.exists] at hd
    obtain ⟨n, b, h1, l', b', h2, u, h3, rfl, rfl⟩ := hd
    exact vec_de_no.mpr ⟨n, b, h1, h2⟩

end loop

section prod
variable {c : Codec α} {fits valid : α → Prop} {d : Codec β} {fits' valid' : β → Prop}

theorem prod_de {m v} {bs rest : Bytes} {p : α × β} : (prodCodec c d).de m v bs = .ok (p, rest) ↔
    ∃ b, c.de m v bs = .ok (p.1, b) ∧ d.de m v b = .ok (p.2, rest) := by
  simp only [prodCodec, ser_bind_ok, ser_pure, Except.ok.injEq, Prod.mk.injEq, Prod.exists]
  constructor
  · rintro ⟨a, b, h1, y, b', h2, rfl, rfl⟩; exact ⟨b, h1, h2⟩
  · rintro ⟨b, h1, h2⟩; exact ⟨_, b, h1, _, _, h2, rfl, rfl⟩

theorem unit_bind_ok {x y : Except SerErr Unit} : (do x; y) = .ok () ↔ x = .ok () ∧ y = .ok () := by
  rw [ser_bind_ok]
  exact ⟨fun ⟨_, h1, h2⟩ => ⟨h1, h2⟩, fun ⟨h1, h2⟩ => ⟨(), h1, h2⟩⟩

theorem prod_good (h : c.Good fits valid) (h' : d.Good fits' valid') :
    (prodCodec c d).Good (fun p => fits p.1 ∧ fits' p.2) (fun p => valid p.1 ∧ valid' p.2) where
  round m v p rest hf hv := by
    refine prod_de.mpr ⟨d.ser m p.2 ++ rest, ?_, h'.round m v _ rest hf.2 fun e => (hv e).2⟩
    rw [← h.round m v p.1 _ hf.1 fun e => (hv e).1]
    simp [prodCodec]
  size m p := by simp [prodCodec, h.size, h'.size]
  stream m v bs p rest hd := by
    obtain ⟨b, h1, h2⟩ := prod_de.mp hd
    obtain ⟨f1, used1, rfl, k1⟩ := h.stream _ _ _ _ _ h1
    obtain ⟨f2, used2, rfl, k2⟩ := h'.stream _ _ _ _ _ h2
    exact ⟨⟨f1, f2⟩, used1 ++ used2, by simp, fun rest' => prod_de.mpr ⟨used2 ++ rest', by rw [List.append_assoc]; exact k1 _,
      k2 rest'⟩⟩
  validate m bs p rest := by
    simp only [prod_de, h.validate, h'.validate]
    exact ⟨fun ⟨b, h1, h2⟩ => ⟨⟨b, h1.1, h2.1⟩, h1.2, h2.2⟩, fun ⟨⟨b, h1, h2⟩, h3, h4⟩ => ⟨b, ⟨h1, h3⟩, h2, h4⟩⟩
  check p := by simp only [prodCodec, unit_bind_ok, h.check, h'.check]
  batch l := by
    simp only [prodCodec, unit_bind_ok, h.batch, h'.batch, List.forall_mem_map]
    exact ⟨fun H x hx => ⟨H.1 x hx, H.2 x hx⟩, fun H => ⟨fun x hx => (H x hx).1, fun x hx => (H x hx).2⟩⟩

theorem prod_canonical (h : c.Canonical) (h' : d.Canonical) : (prodCodec c d).Canonical := by
  intro m v bs p rest hd
  obtain ⟨b, h1, h2⟩ := prod_de.mp hd
  rw [h _ _ _ _ _ h1, h' _ _ _ _ _ h2]
  simp [prodCodec]

variable {mk : α → β} {fields : β → α}

theorem struct_de {m v} {bs rest : Bytes} {x : β} (h1 : ∀ a, fields (mk a) = a) (h2 : ∀ b, mk (fields b) = b) :
    (structCodec mk fields c).de m v bs = .ok (x, rest) ↔ c.de m v bs = .ok (fields x, rest) := by
  simp only [structCodec, ser_bind_ok, ser_pure, Except.ok.injEq, Prod.mk.injEq, Prod.exists]
  constructor
  · rintro ⟨a, b, h, rfl, rfl⟩; rwa [h1]
  · intro h; exact ⟨_, _, h, h2 x, rfl⟩

theorem struct_good (h1 : ∀ a, fields (mk a) = a) (h2 : ∀ b, mk (fields b) = b) (h : c.Good fits valid)
    {fits' valid' : β → Prop} (hf : ∀ b, fits' b ↔ fits (fields b)) (hv : ∀ b, valid' b ↔ valid (fields b)) :
    (structCodec mk fields c).Good fits' valid' where
  round m v x rest hf' hv' := (struct_de h1 h2).mpr (h.round m v _ rest ((hf x).mp hf') fun e => (hv x).mp (hv' e))
  size m x := h.size m _
  stream m v bs x rest hd := by
    obtain ⟨f, used, e1, k⟩ := h.stream _ _ _ _ _ ((struct_de h1 h2).mp hd)
    exact ⟨(hf x).mpr f, used, e1, fun rest' => (struct_de h1 h2).mpr (k rest')⟩
  validate m bs x rest := by rw [struct_de h1 h2, struct_de h1 h2, h.validate, hv]
  check x := by rw [hv]; exact h.check _
  batch l := by
    show c.batchCheck (l.map fields) = .ok () ↔ _
    rw [h.batch, List.forall_mem_map]
    exact forall₂_congr fun x _ => (hv x).symm

theorem struct_canonical (h1 : ∀ a, fields (mk a) = a) (h2 : ∀ b, mk (fields b) = b) (h : c.Canonical) :
    (structCodec mk fields c).Canonical := by
  intro m v bs x rest hd
  exact h _ _ _ _ _ ((struct_de h1 h2).mp hd)

end prod

section consequences
variable {c : Codec α} {fits valid : α → Prop}

/-- Reading the same bytes without validation. -/
theorem Codec.Good.de_ser (h : c.Good fits valid) (m : Compress) (x : α) (hx : fits x) (rest : Bytes) :
    c.de m .No (c.ser m x ++ rest) = .ok (x, rest) := h.round m .No x rest hx (by simp)

theorem Codec.Good.prefix_free (h : c.Good fits valid) {m : Compress} {x y : α} (hx : fits x) (hy : fits y)
    {rest rest' : Bytes} (he : c.ser m x ++ rest = c.ser m y ++ rest') : x = y ∧ rest = rest' := by
  have h1 := h.de_ser m x hx rest
  rw [he, h.de_ser m y hy rest'] at h1
  simp only [Except.ok.injEq, Prod.mk.injEq] at h1
  exact ⟨h1.1.symm, h1.2.symm⟩

theorem Codec.Good.truncated (h : c.Good fits valid) {m : Compress} {v : Validate} {x : α} (hx : fits x)
    {b t : Bytes} (ht : t ≠ []) (he : c.ser m x = b ++ t) : ∃ err, c.de m v b = .error err := by
  cases hd : c.de m v b with
  | error err => exact ⟨err, rfl⟩
  | ok r =>
    exfalso
    obtain ⟨y, r⟩ := r
    have hd' : c.de m .No b = .ok (y, r) := by
      cases v with
      | No => exact hd
      | Yes => exact ((h.validate _ _ _ _).mp hd).1
    obtain ⟨_, used, rfl, k⟩ := h.stream _ _ _ _ _ hd'
    have h1 := k (r ++ t)
    rw [← List.append_assoc, ← he] at h1
    have h2 := h.de_ser m x hx []
    rw [List.append_nil, h1] at h2
    simp only [Except.ok.injEq, Prod.mk.injEq, List.append_eq_nil_iff] at h2
    exact ht h2.2.2

end consequences
end GS
