import Verif.Spec.Bls
import Verif.Lemmas.Element

/-! The point format of ark-bls12-381. -/

namespace GS
variable {α B C F G G1 G2 GT : Type}

/-- The number that the flags add to the first byte. -/
def BlsFlags.tag (fl : BlsFlags) : UInt8 :=
  (if fl.compressed then 0x80 else 0) + (if fl.infinity then 0x40 else 0) + (if fl.largest then 0x20 else 0)

def allFlags : List BlsFlags :=
  [⟨true, true, true⟩, ⟨true, true, false⟩, ⟨true, false, true⟩, ⟨true, false, false⟩,
    ⟨false, true, true⟩, ⟨false, true, false⟩, ⟨false, false, true⟩, ⟨false, false, false⟩]

theorem mem_allFlags (fl : BlsFlags) : fl ∈ allFlags := by
  obtain ⟨a, b, c⟩ := fl
  cases a <;> cases b <;> cases c <;> simp [allFlags]

theorem ofByte_ok (b : UInt8) (fl : BlsFlags) (h : BlsFlags.ofByte b = .ok fl) :
    (b &&& 0x1f) + fl.tag = b ∧ (fl.largest = true → fl.compressed = true ∧ fl.infinity = false) := by
  have key : ∀ i : Fin 256, ∀ fl ∈ allFlags, BlsFlags.ofByte (UInt8.ofNat i.val) = .ok fl →
      (UInt8.ofNat i.val &&& 0x1f) + fl.tag = UInt8.ofNat i.val ∧ (fl.largest = true → fl.compressed = true ∧ fl.infinity = false) := by
    decide +kernel
  have hb : UInt8.ofNat b.toNat = b := by simp
  have := key ⟨b.toNat, b.toNat_lt⟩ fl (mem_allFlags fl)
  rw [hb] at this
  exact this h

theorem ofByte_tag (a : UInt8) (fl : BlsFlags) (h : a.toNat < 32) :
    (a + fl.tag) &&& 0x1f = a ∧
    ((fl.largest = true → fl.compressed = true ∧ fl.infinity = false) → BlsFlags.ofByte (a + fl.tag) = .ok fl) := by
  have key : ∀ i : Fin 256, i.val < 32 → ∀ fl ∈ allFlags, (UInt8.ofNat i.val + fl.tag) &&& 0x1f = UInt8.ofNat i.val ∧
      ((fl.largest = true → fl.compressed = true ∧ fl.infinity = false) → BlsFlags.ofByte (UInt8.ofNat i.val + fl.tag) = .ok fl) := by
    decide +kernel
  have hb : UInt8.ofNat a.toNat = a := by simp
  have := key ⟨a.toNat, a.toNat_lt⟩ h fl (mem_allFlags fl)
  rwa [hb] at this

theorem encode_tag (a : UInt8) (l : Bytes) (fl : BlsFlags) (h : a.toNat < 32) :
    fl.encode (a :: l) = tagged (if fl.compressed = true ∧ fl.infinity = false then fl.tag else { fl with largest := false }.tag) (a :: l) := by
  have key : ∀ i : Fin 256, i.val < 32 → ∀ fl ∈ allFlags, (fl.encode [UInt8.ofNat i.val]) =
      [UInt8.ofNat i.val + if fl.compressed = true ∧ fl.infinity = false then fl.tag else { fl with largest := false }.tag] := by
    decide +kernel
  have hb : UInt8.ofNat a.toNat = a := by simp
  have := key ⟨a.toNat, a.toNat_lt⟩ h fl (mem_allFlags fl)
  rw [hb] at this
  simp only [BlsFlags.encode, List.cons.injEq, and_true] at this
  simp only [BlsFlags.encode, tagged, this]

theorem readData_iff {k : Nat} {bs b rest : Bytes} : readData k bs = .ok (b, rest) ↔ bs = b ++ rest ∧ b.length = k := by
  rw [← readExact_iff, readData]
  cases readExact k bs <;> simp

theorem readData_short {k : Nat} {bs : Bytes} (h : bs.length < k) : readData k bs = .error .invalidData := by
  simp [readData, readExact, h]

theorem readData_long {k : Nat} {bs : Bytes} (h : k ≤ bs.length) : readData k bs = .ok (bs.take k, bs.drop k) := by
  simp [readData, readExact, Nat.not_lt.mpr h]

theorem readData_error {k : Nat} {bs : Bytes} {err : SerErr} (h : readData k bs = .error err) : err = .invalidData := by
  unfold readData at h
  split at h <;> simp_all

theorem ofByte_error {b : UInt8} {err : SerErr} (h : BlsFlags.ofByte b = .error err) : err = .invalidData := by
  unfold BlsFlags.ofByte at h
  dsimp only at h
  split at h <;> simp_all

theorem bind_error {β : Type} {a : Except SerErr α} {f : α → Except SerErr β} {err : SerErr} (h : (a >>= f) = .error err) :
    a = .error err ∨ ∃ x, a = .ok x ∧ f x = .error err := by
  cases a with
  | error e =>
    have : (Except.error e : Except SerErr β) = .error err := h
    simp only [Except.error.injEq] at this
    exact .inl (by rw [this])
  | ok x => exact .inr ⟨x, rfl, h⟩

theorem tagged_zero (b : Bytes) : tagged 0 b = b := by cases b <;> simp [tagged]

theorem length_tagged (t : UInt8) (b : Bytes) : (tagged t b).length = b.length := by cases b <;> simp [tagged]

/-! ### Coordinates -/

theorem fp_first {p k : Nat} [NeZero p] (hk : 8 * p ≤ 256 ^ k) (x : ZMod p) :
    ∃ a l, (leBytes k x.val).reverse = a :: l ∧ a.toNat < 32 := by
  have hp : 0 < p := Nat.pos_of_ne_zero (NeZero.ne p)
  have hv := ZMod.val_lt x
  obtain ⟨n, rfl⟩ : ∃ n, k = n + 1 := by
    cases k with
    | zero => simp at hk; omega
    | succ n => exact ⟨n, rfl⟩
  have hpow : 0 < 256 ^ n := by positivity
  rw [pow_succ] at hk
  obtain ⟨i, w, hw, hi⟩ := exists_concat (length_leBytes (n + 1) x.val)
  have hval : leNat (i ++ [w]) = x.val := by
    rw [← hw]; exact leNat_leBytes _ _ (by rw [pow_succ]; omega)
  refine ⟨w, i.reverse, by rw [hw]; simp, ?_⟩
  rw [leNat_concat, hi] at hval
  by_contra hcon
  have : 256 ^ n * 32 ≤ 256 ^ n * w.toNat := Nat.mul_le_mul_left _ (by omega)
  omega

theorem leBytes_zero (k : Nat) : leBytes k 0 = List.replicate k 0 := by
  induction k with
  | zero => rfl
  | succ k ih => simp [leBytes, ih, List.replicate_succ]

theorem beFp_lawful {p k : Nat} [NeZero p] (hk : 8 * p ≤ 256 ^ k) : (beFp p k).Lawful where
  length x := by simp [beFp, length_leBytes]
  clear x := fp_first hk x
  dec b x hb := by
    have hv := ZMod.val_lt x
    simp only [beFp] at hb ⊢
    constructor
    · intro h
      split_ifs at h with h1
      simp only [Option.some.injEq] at h
      subst h
      rw [ZMod.val_natCast_of_lt h1]
      have hl : b.reverse.length = k := by simpa using hb
      rw [← hl, leBytes_leNat, List.reverse_reverse]
    · rintro rfl
      rw [List.reverse_reverse, leNat_leBytes _ _ (by omega), if_pos hv, ZMod.natCast_val, ZMod.cast_id]
  zero := by simp [beFp, leBytes_zero]

theorem beQuad_lawful [Zero B] [Zero C] {c : BeField B} (h : c.Lawful) {mk : B × B → C} {fields : C → B × B}
    (h1 : ∀ a, fields (mk a) = a) (h2 : ∀ b, mk (fields b) = b) (h0 : fields 0 = (0, 0)) : (beQuad c mk fields).Lawful where
  length x := by simp [beQuad, h.length]; omega
  clear x := by
    obtain ⟨a, l, e, ha⟩ := h.clear (fields x).2
    exact ⟨a, l ++ c.enc (fields x).1, by simp [beQuad, e], ha⟩
  dec b x hb := by
    simp only [beQuad] at hb ⊢
    have l1 : (b.take c.size).length = c.size := by simp; omega
    have l2 : (b.drop c.size).length = c.size := by simp; omega
    simp only [Option.bind_eq_bind, Option.bind_eq_some_iff, Option.some.injEq]
    constructor
    · rintro ⟨c1, e1, c0, e0, rfl⟩
      rw [h1, ← (h.dec _ _ l1).mp e1, ← (h.dec _ _ l2).mp e0, List.take_append_drop]
    · intro e
      refine ⟨(fields x).2, (h.dec _ _ l1).mpr ?_, (fields x).1, (h.dec _ _ l2).mpr ?_, h2 x⟩
      · rw [e, ← h.length (fields x).2, List.take_left]
      · rw [e]
        conv_lhs => rw [← h.length (fields x).2]
        rw [List.drop_left]
  zero := by
    simp only [beQuad, h0, h.zero]
    rw [← List.replicate_add, two_mul]

theorem BeField.Lawful.inj [Zero B] {c : BeField B} (h : c.Lawful) {x y : B} (e : c.enc x = c.enc y) : x = y := by
  have := (h.dec _ x (h.length x)).mpr rfl
  rw [e, (h.dec _ y (h.length y)).mpr rfl] at this
  exact (Option.some.inj this).symm

/-! ### Points -/

section curve
variable [Field B] [DecidableEq B] {E : SWCurve B} {c : BeField B}

theorem bls_valid (P : Affine B) : (E.blsCodec c).Valid P ↔ E.onCurve P = true ∧ E.inSubgroup P = true := by
  simp only [Codec.Valid, SWCurve.blsCodec, SWCurve.check]
  split_ifs with h
  · simpa using h
  · simp only [Bool.and_eq_true] at h; simp [h]

omit [DecidableEq B] in
theorem ys_larger (hE : E.Lawful) (x y : B) (g : Bool) :
    (∃ y0 y1, E.ysFromX x = some (y0, y1) ∧ y = if g then y1 else y0) ↔ y * y = E.rhs x ∧ (g = !E.le y (-y) ∨ y = -y) := by
  have h := SWCurve.ys_iff hE x y (if g then .YIsNegative else .YIsPositive) (by cases g <;> simp)
  simp only [SWCurve.toFlags] at h
  cases g <;> cases hl : E.le y (-y) <;> simp_all

theorem cmask (a : UInt8) (l : Bytes) : maskFirst (a :: l) = (a &&& 0x1f) :: l := rfl

omit [DecidableEq B] in
/-- A string with the flags `fl`. -/
theorem first_iff (hc : c.Lawful) {w : UInt8} {l : Bytes} {fl : BlsFlags} {x : B} (hok : fl.largest = true → fl.compressed = true ∧ fl.infinity = false) :
    w :: l = tagged fl.tag (c.enc x) ↔ BlsFlags.ofByte w = .ok fl ∧ (w &&& 0x1f) :: l = c.enc x := by
  obtain ⟨a, l', e, ha⟩ := hc.clear x
  rw [e]
  constructor
  · intro h
    simp only [tagged, List.cons.injEq] at h
    obtain ⟨rfl, rfl⟩ := h
    exact ⟨(ofByte_tag a fl ha).2 hok, by rw [(ofByte_tag a fl ha).1]⟩
  · rintro ⟨h1, h2⟩
    simp only [List.cons.injEq] at h2
    obtain ⟨rfl, rfl⟩ := h2
    simp only [tagged, (ofByte_ok w fl h1).1]

theorem bls_read_compressed (hE : E.Lawful) (hc : c.Lawful) (bs : Bytes) (P : Affine B) (rest : Bytes) :
    E.blsCompressed c bs = .ok (P, rest) ↔
      (P = Affine.identity ∧ bs = tagged 0xc0 (c.enc 0) ++ rest) ∨
      (P.infinity = false ∧ E.onCurve P = true ∧ ∃ g, (g = !E.le P.y (-P.y) ∨ P.y = -P.y) ∧
        bs = tagged (if g then 0xa0 else 0x80) (c.enc P.x) ++ rest) := by
  have hpos : ∀ b : Bytes, b.length = c.size → ∃ w l, b = w :: l := by
    intro b hb
    obtain ⟨a, l, e, -⟩ := hc.clear 0
    cases b with
    | nil => have := hc.length 0; rw [e, ← hb] at this; simp at this
    | cons w l => exact ⟨w, l, rfl⟩
  simp only [SWCurve.blsCompressed, ser_bind_ok, Prod.exists]
  constructor
  · rintro ⟨b, r, h1, fl, h2, h3⟩
    obtain ⟨rfl, hl⟩ := readData_iff.mp h1
    obtain ⟨w, l, rfl⟩ := hpos b hl
    simp only [List.headD_cons] at h2
    have hok := (ofByte_ok w fl h2).2
    obtain ⟨cm, inf, lg⟩ := fl
    cases cm
    · simp at h3
    simp only [Bool.not_true, Bool.false_eq_true, if_false] at h3
    cases inf
    · simp only [Bool.false_eq_true, if_false, cmask] at h3
      have hl' : ((w &&& 0x1f) :: l).length = c.size := by simpa using hl
      cases hd : c.dec ((w &&& 0x1f) :: l) with
      | none => simp [hd] at h3
      | some x =>
        simp only [hd] at h3
        cases hy : E.ysFromX x with
        | none => simp [hy] at h3
        | some yy =>
          obtain ⟨y0, y1⟩ := yy
          simp only [hy, ser_pure, Except.ok.injEq, Prod.mk.injEq] at h3
          obtain ⟨rfl, rfl⟩ := h3
          obtain ⟨k1, k2⟩ := (ys_larger hE x _ lg).mp ⟨y0, y1, hy, rfl⟩
          refine .inr ⟨rfl, (SWCurve.onCurve_iff _ _).mpr k1, lg, k2, ?_⟩
          rw [(first_iff hc hok).mpr ⟨h2, (hc.dec _ _ hl').mp hd⟩]
          cases lg <;> rfl
    · simp only [if_true] at h3
      split at h3
      swap
      · simp at h3
      rename_i h4
      simp only [ser_pure, Except.ok.injEq, Prod.mk.injEq] at h3
      obtain ⟨rfl, rfl⟩ := h3
      cases lg
      · exact .inl ⟨rfl, by rw [(first_iff hc hok).mpr ⟨h2, h4.trans hc.zero.symm⟩]; rfl⟩
      · simp at hok
  · have hpos' : ∀ (t : UInt8) x, ∃ w l, tagged t (c.enc x) = w :: l := fun t x => hpos _ (by rw [length_tagged, hc.length])
    rintro (⟨rfl, rfl⟩ | ⟨hi, ho, g, hg, rfl⟩)
    · obtain ⟨w, l, e⟩ := hpos' 0xc0 0
      obtain ⟨k1, k2⟩ := (first_iff hc (fl := ⟨true, true, false⟩) (by simp)).mp e.symm
      refine ⟨tagged 0xc0 (c.enc 0), rest, readData_iff.mpr ⟨rfl, by rw [length_tagged, hc.length]⟩, ⟨true, true, false⟩, ?_, ?_⟩
      · rw [e]; exact k1
      · rw [e]
        simp [cmask, k2, hc.zero, ser_pure]
    · obtain ⟨x, y, i⟩ := P
      simp only at hi hg ⊢
      subst hi
      obtain ⟨y0, y1, hy, hyy⟩ := (ys_larger hE x y g).mpr ⟨(SWCurve.onCurve_iff _ _).mp ho, hg⟩
      have ht : (if g then 0xa0 else 0x80) = BlsFlags.tag ⟨true, false, g⟩ := by cases g <;> rfl
      obtain ⟨w, l, e⟩ := hpos' (BlsFlags.tag ⟨true, false, g⟩) x
      obtain ⟨k1, k2⟩ := (first_iff hc (fl := ⟨true, false, g⟩) (by simp)).mp e.symm
      refine ⟨tagged (BlsFlags.tag ⟨true, false, g⟩) (c.enc x), rest, readData_iff.mpr ⟨by rw [ht], by rw [length_tagged, hc.length]⟩, ⟨true, false, g⟩, ?_, ?_⟩
      · rw [e]; exact k1
      · rw [e]
        simp [cmask, k2, (hc.dec _ x (hc.length x)).mpr rfl, hy, ← hyy, ser_pure]

omit [DecidableEq B] in
theorem bls_read_uncompressed (hc : c.Lawful) (bs : Bytes) (P : Affine B) (rest : Bytes) :
    SWCurve.blsUncompressed c bs = .ok (P, rest) ↔
      (P = Affine.identity ∧ bs = tagged 0x40 (c.enc 0) ++ c.enc 0 ++ rest) ∨
      (P.infinity = false ∧ bs = c.enc P.x ++ c.enc P.y ++ rest) := by
  have hpos : 0 < c.size := by
    obtain ⟨a, l, e, -⟩ := hc.clear 0
    have := hc.length 0
    rw [e] at this
    simp at this
    omega
  have hcons : ∀ b : Bytes, b.length = 2 * c.size → ∃ w l b', b = w :: l ++ b' ∧ (w :: l).length = c.size ∧ b'.length = c.size := by
    intro b hb
    have l1 : (b.take c.size).length = c.size := by simp; omega
    cases h : b.take c.size with
    | nil => rw [h] at l1; simp at l1; omega
    | cons w l => exact ⟨w, l, b.drop c.size, by rw [← h, List.take_append_drop], by rw [← h, l1], by simp; omega⟩
  simp only [SWCurve.blsUncompressed, ser_bind_ok, Prod.exists]
  constructor
  · rintro ⟨b, r, h1, fl, h2, h3⟩
    obtain ⟨rfl, hl⟩ := readData_iff.mp h1
    obtain ⟨w, l, b', rfl, hwl, hb'⟩ := hcons b hl
    simp only [List.cons_append, List.headD_cons] at h2
    have hok := (ofByte_ok w fl h2).2
    obtain ⟨cm, inf, lg⟩ := fl
    cases cm
    swap
    · simp at h3
    have hlg : lg = false := by cases lg <;> simp_all
    subst hlg
    have ht : (w :: l ++ b').take c.size = w :: l := by rw [← hwl, List.take_left]
    have hd : (w :: l ++ b').drop c.size = b' := by rw [← hwl, List.drop_left]
    rw [ht, hd] at h3
    simp only [Bool.false_eq_true, if_false] at h3
    have hl' : ((w &&& 0x1f) :: l).length = c.size := by simpa using hwl
    cases inf
    · simp only [Bool.false_eq_true, if_false, cmask] at h3
      cases hx : c.dec ((w &&& 0x1f) :: l) with
      | none => simp [hx] at h3
      | some x =>
        cases hy : c.dec b' with
        | none => simp [hx, hy] at h3
        | some y =>
          simp only [hx, hy, ser_pure, Except.ok.injEq, Prod.mk.injEq] at h3
          obtain ⟨rfl, rfl⟩ := h3
          refine .inr ⟨rfl, ?_⟩
          rw [(first_iff hc hok).mpr ⟨h2, (hc.dec _ _ hl').mp hx⟩, (hc.dec _ _ hb').mp hy]
          exact congrArg (· ++ c.enc y ++ r) (tagged_zero _)
    · simp only [if_true] at h3
      split at h3
      swap
      · simp at h3
      rename_i h4
      simp only [ser_pure, Except.ok.injEq, Prod.mk.injEq] at h3
      obtain ⟨rfl, rfl⟩ := h3
      refine .inl ⟨rfl, ?_⟩
      rw [(first_iff hc hok).mpr ⟨h2, h4.1.trans hc.zero.symm⟩, h4.2, hc.zero]
      rfl
  · have key : ∀ (inf : Bool) x y, ∃ w l, tagged (BlsFlags.tag ⟨false, inf, false⟩) (c.enc x) = w :: l ∧
        BlsFlags.ofByte w = .ok ⟨false, inf, false⟩ ∧ maskFirst (w :: l) = c.enc x ∧
        (w :: l ++ c.enc y).take c.size = w :: l ∧ (w :: l ++ c.enc y).drop c.size = c.enc y ∧ (w :: l).length = c.size := by
      intro inf x y
      have hlen : (tagged (BlsFlags.tag ⟨false, inf, false⟩) (c.enc x)).length = c.size := by rw [length_tagged, hc.length]
      cases e : tagged (BlsFlags.tag ⟨false, inf, false⟩) (c.enc x) with
      | nil => rw [e] at hlen; simp at hlen; omega
      | cons w l =>
        obtain ⟨k1, k2⟩ := (first_iff hc (fl := ⟨false, inf, false⟩) (by simp)).mp e.symm
        rw [e] at hlen
        exact ⟨w, l, rfl, k1, k2, by rw [← hlen, List.take_left], by conv_lhs => rw [← hlen, List.drop_left], hlen⟩
    rintro (⟨rfl, rfl⟩ | ⟨hi, rfl⟩)
    · obtain ⟨w, l, e, k1, k2, k3, k4, k5⟩ := key true 0 0
      refine ⟨w :: l ++ c.enc 0, rest, readData_iff.mpr ⟨by rw [← e]; rfl, by rw [List.length_append, k5, hc.length]; omega⟩, _, k1, ?_⟩
      rw [k3, k4, k2, hc.zero]
      simp [ser_pure]
    · obtain ⟨x, y, i⟩ := P
      simp only at hi ⊢
      subst hi
      obtain ⟨w, l, e, k1, k2, k3, k4, k5⟩ := key false x y
      refine ⟨w :: l ++ c.enc y, rest, readData_iff.mpr ⟨?_, by rw [List.length_append, k5, hc.length]; omega⟩, _, k1, ?_⟩
      · rw [← e]; exact congrArg (· ++ c.enc y ++ rest) (tagged_zero _).symm
      · rw [k3, k4, k2]
        simp [(hc.dec _ x (hc.length x)).mpr rfl, (hc.dec _ y (hc.length y)).mpr rfl, ser_pure]

theorem bls_de {m : Compress} {v : Validate} {bs rest : Bytes} {P : Affine B} :
    (E.blsCodec c).de m v bs = .ok (P, rest) ↔
      E.blsRead c m bs = .ok (P, rest) ∧ (v = .Yes → E.inSubgroup P = true) := by
  simp only [SWCurve.blsCodec, ser_bind_ok, Prod.exists]
  constructor
  · rintro ⟨Q, r, h1, h2⟩
    split_ifs at h2 with h3
    simp only [ser_pure, Except.ok.injEq, Prod.mk.injEq] at h2
    obtain ⟨rfl, rfl⟩ := h2
    exact ⟨h1, fun hv => by simpa [hv] using h3⟩
  · rintro ⟨h1, h2⟩
    exact ⟨P, rest, h1, by rw [if_neg (by rintro ⟨h3, h4⟩; simp [h2 h3] at h4), ser_pure]⟩

theorem bls_ser_identity (hc : c.Lawful) (m : Compress) : (E.blsCodec c).ser m Affine.identity = match m with
    | .Yes => tagged 0xc0 (c.enc 0)
    | .No => tagged 0x40 (c.enc 0) ++ c.enc 0 := by
  obtain ⟨a, l, e, ha⟩ := hc.clear (0 : B)
  cases m
  · simp only [SWCurve.blsCodec, Affine.identity, if_true, e]
    rw [encode_tag _ _ _ ha]; rfl
  · simp only [SWCurve.blsCodec, Affine.identity, if_true, e, List.cons_append]
    rw [encode_tag _ _ _ ha]; rfl

theorem bls_ser_finite (hc : c.Lawful) {P : Affine B} (h : P.infinity = false) (m : Compress) : (E.blsCodec c).ser m P = match m with
    | .Yes => tagged (if !E.le P.y (-P.y) then 0xa0 else 0x80) (c.enc P.x)
    | .No => c.enc P.x ++ c.enc P.y := by
  obtain ⟨a, l, e, ha⟩ := hc.clear P.x
  cases m
  · simp only [SWCurve.blsCodec, h, Bool.false_eq_true, if_false, e]
    rw [encode_tag _ _ _ ha]
    cases E.le P.y (-P.y) <;> rfl
  · simp only [SWCurve.blsCodec, h, Bool.false_eq_true, if_false, e, List.cons_append]
    rw [encode_tag _ _ _ ha]
    simp [tagged, BlsFlags.tag]

omit [DecidableEq B] in
theorem BeField.Lawful.pos (hc : c.Lawful) : 0 < c.size := by
  obtain ⟨a, l, e, -⟩ := hc.clear 0
  have := hc.length 0
  rw [e] at this
  simp at this
  omega

/-- The first byte of a serialization has the flag of its form. -/
theorem bls_ser_first (hc : c.Lawful) (m : Compress) (P : Affine B) : ∃ w l fl, (E.blsCodec c).ser m P = w :: l ∧
    BlsFlags.ofByte w = .ok fl ∧ fl.compressed = decide (m = .Yes) := by
  have key : ∀ (x : B) (fl : BlsFlags) (rest : Bytes), (fl.largest = true → fl.compressed = true ∧ fl.infinity = false) →
      ∃ w l, tagged fl.tag (c.enc x) ++ rest = w :: l ∧ BlsFlags.ofByte w = .ok fl := by
    intro x fl rest hok
    obtain ⟨a, l, e, ha⟩ := hc.clear x
    exact ⟨a + fl.tag, l ++ rest, by rw [e]; rfl, (ofByte_tag a fl ha).2 hok⟩
  cases hi : P.infinity
  · cases m
    · obtain ⟨w, l, e, h⟩ := key P.x ⟨true, false, !E.le P.y (-P.y)⟩ [] (by simp)
      refine ⟨w, l, _, ?_, h, by simp⟩
      rw [bls_ser_finite hc hi, ← e, List.append_nil]
      cases E.le P.y (-P.y) <;> rfl
    · obtain ⟨w, l, e, h⟩ := key P.x ⟨false, false, false⟩ (c.enc P.y) (by simp)
      refine ⟨w, l, _, ?_, h, by simp⟩
      rw [bls_ser_finite hc hi, ← e]
      exact congrArg (· ++ c.enc P.y) (tagged_zero _).symm
  · have hP : (E.blsCodec c).ser m P = (E.blsCodec c).ser m Affine.identity := by
      obtain ⟨a, l, e, ha⟩ := hc.clear (0 : B)
      cases m <;> simp only [SWCurve.blsCodec, hi, Affine.identity, if_true, e, List.cons_append] <;>
        rw [encode_tag _ _ _ ha, encode_tag _ _ _ ha] <;> rfl
    rw [hP]
    cases m
    · obtain ⟨w, l, e, h⟩ := key 0 ⟨true, true, false⟩ [] (by simp)
      refine ⟨w, l, _, ?_, h, by simp⟩
      rw [bls_ser_identity hc, ← e, List.append_nil]; rfl
    · obtain ⟨w, l, e, h⟩ := key 0 ⟨false, true, false⟩ (c.enc 0) (by simp)
      refine ⟨w, l, _, ?_, h, by simp⟩
      rw [bls_ser_identity hc, ← e]; rfl

theorem bls_size (hc : c.Lawful) (m : Compress) (P : Affine B) : ((E.blsCodec c).ser m P).length = (E.blsCodec c).size m P := by
  have hlen : ∀ (fl : BlsFlags) (b : Bytes), (fl.encode b).length = b.length := fun fl b => by cases b <;> simp [BlsFlags.encode]
  cases m <;> simp only [SWCurve.blsCodec, hlen, List.length_append, hc.length]
  omega

end curve

/-! ### Full validation -/

section strict
variable {c c' : Codec α}

theorem strict_de {m v} {bs rest : Bytes} {x : α} :
    c.strict.de m v bs = .ok (x, rest) ↔ c.de m .No bs = .ok (x, rest) ∧ (v = .Yes → c.Valid x) := by
  cases v with
  | No => simp [Codec.strict]
  | Yes =>
    simp only [Codec.strict, ser_bind_ok, Prod.exists, ser_pure, Except.ok.injEq, Prod.mk.injEq, forall_const]
    constructor
    · rintro ⟨a, b, h1, u, h2, rfl, rfl⟩; exact ⟨h1, h2⟩
    · rintro ⟨h1, h2⟩; exact ⟨_, _, h1, (), h2, rfl, rfl⟩

theorem strict_orderly (hs : ∀ m bs x rest, c.de m .No bs = .ok (x, rest) → ∃ used, bs = used ++ rest ∧ c.Reads m .No x used)
    (hb : ∀ l, c.batchCheck l = .ok () ↔ ∀ x ∈ l, c.Valid x) : c.strict.Orderly where
  stream m v bs x rest h := by
    obtain ⟨h1, h2⟩ := strict_de.mp h
    obtain ⟨used, e, hr⟩ := hs _ _ _ _ h1
    exact ⟨used, e, fun r => strict_de.mpr ⟨hr r, h2⟩⟩
  validate m bs x rest := by
    rw [strict_de, strict_de]
    simp only [forall_const, reduceCtorEq, false_imp_iff, and_true]
    rfl
  batch := hb

theorem deLoop_congr (h : ∀ m bs, c.de m .No bs = c'.de m .No bs) (m : Compress) (n : Nat) (bs : Bytes) : deLoop c m n bs = deLoop c' m n bs := by
  induction n generalizing bs with
  | zero => rfl
  | succ n ih => simp only [deLoop, h, ih]

theorem vec_congr (hs : c.ser = c'.ser) (hz : c.size = c'.size) (h : ∀ m bs, c.de m .No bs = c'.de m .No bs)
    (hb : c.batchCheck = c'.batchCheck) : vecCodec c = vecCodec c' := by
  simp only [vecCodec, hs, hz, hb, deLoop_congr h]

theorem vec_strict : vecCodec c.strict = vecCodec c := vec_congr rfl rfl (fun _ _ => rfl) rfl

theorem vec_com_strict : vecCodec (Com.codec c.strict) = vecCodec (Com.codec c) := vec_congr rfl rfl (fun _ _ => rfl) rfl

end strict
end GS
