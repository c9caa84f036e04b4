import Verif.Spec.Element
import Verif.Lemmas.Encoding
import Mathlib.Tactic.LinearCombination
import Mathlib.Tactic.Linarith

/-! Codecs of elements. -/

namespace GS
variable {α B : Type}

theorem loopCheck_iff (check : α → Except SerErr Unit) (l : List α) :
    loopCheck check l = .ok () ↔ ∀ x ∈ l, check x = .ok () := by
  induction l with
  | nil => simp [loopCheck]
  | cons a l ih => rw [List.forall_mem_cons, ← ih]; exact unit_bind_ok

theorem length_onLast (f : UInt8 → UInt8) (b : Bytes) : (onLast f b).length = b.length := by
  induction b with
  | nil => rfl
  | cons a l ih =>
    cases l with
    | nil => rfl
    | cons a' l => simpa [onLast] using ih

theorem onLast_concat (f : UInt8 → UInt8) (l : Bytes) (b : UInt8) : onLast f (l ++ [b]) = l ++ [f b] := by
  induction l with
  | nil => rfl
  | cons a l ih =>
    cases l with
    | nil => rfl
    | cons a' l => simpa [onLast] using ih

theorem leNat_concat (l : Bytes) (b : UInt8) : leNat (l ++ [b]) = leNat l + 256 ^ l.length * b.toNat := by
  induction l with
  | nil => simp [leNat]
  | cons a l ih =>
    rw [List.cons_append, leNat, ih, leNat, List.length_cons, pow_succ]
    ring

/-- A byte below 64 and a flag make a byte from which both can be told. -/
theorem flags_byte (b : UInt8) (fl : SWFlags) (h : b.toNat < 64) :
    SWFlags.fromU8 (b ||| fl.mask) = some fl ∧ (b ||| fl.mask) &&& ~~~fl.mask = b := by
  have key : ∀ i : Fin 256, i.val < 64 → ∀ fl : SWFlags, fl ∈ [SWFlags.YIsPositive, .PointAtInfinity, .YIsNegative] →
      SWFlags.fromU8 (UInt8.ofNat i.val ||| fl.mask) = some fl ∧ (UInt8.ofNat i.val ||| fl.mask) &&& ~~~fl.mask = UInt8.ofNat i.val := by
    decide +kernel
  have hb : UInt8.ofNat b.toNat = b := by simp
  have := key ⟨b.toNat, b.toNat_lt⟩ h fl (by cases fl <;> simp)
  rwa [hb] at this

theorem byte_flags (b : UInt8) (fl : SWFlags) (h : SWFlags.fromU8 b = some fl) :
    (b &&& ~~~fl.mask).toNat < 64 ∧ (b &&& ~~~fl.mask) ||| fl.mask = b := by
  have key : ∀ i : Fin 256, ∀ fl : SWFlags, fl ∈ [SWFlags.YIsPositive, .PointAtInfinity, .YIsNegative] →
      SWFlags.fromU8 (UInt8.ofNat i.val) = some fl → (UInt8.ofNat i.val &&& ~~~fl.mask).toNat < 64 ∧
        (UInt8.ofNat i.val &&& ~~~fl.mask) ||| fl.mask = UInt8.ofNat i.val := by
    decide +kernel
  have hb : UInt8.ofNat b.toNat = b := by simp
  have := key ⟨b.toNat, b.toNat_lt⟩ fl (by cases fl <;> simp)
  rw [hb] at this
  exact this h

theorem exists_concat {l : Bytes} {k : Nat} (h : l.length = k + 1) : ∃ i b, l = i ++ [b] ∧ i.length = k := by
  rcases List.eq_nil_or_concat' l with rfl | ⟨i, b, rfl⟩
  · simp at h
  · exact ⟨i, b, rfl, by simpa using h⟩

section fp
variable {p k k' : Nat} [NeZero p]

theorem fp_plain_de (hk : p ≤ 256 ^ k) {m v} {bs rest : Bytes} {x : ZMod p} :
    (fpCodec p k k').plain.de m v bs = .ok (x, rest) ↔ bs = leBytes k x.val ++ rest := by
  simp only [fpCodec, ser_bind_ok, Prod.exists]
  constructor
  · rintro ⟨b, r, h1, h2⟩
    obtain ⟨rfl, hl⟩ := readExact_iff.mp h1
    split_ifs at h2 with h3
    simp only [ser_pure, Except.ok.injEq, Prod.mk.injEq] at h2
    obtain ⟨rfl, rfl⟩ := h2
    rw [ZMod.val_natCast_of_lt h3, ← hl, leBytes_leNat]
  · rintro rfl
    have hv := ZMod.val_lt x
    refine ⟨leBytes k x.val, rest, readExact_iff.mpr ⟨rfl, length_leBytes _ _⟩, ?_⟩
    rw [leNat_leBytes _ _ (by omega), if_pos hv, ZMod.natCast_val, ZMod.cast_id, ser_pure]

omit [NeZero p] in
theorem fp_valid (x : ZMod p) : (fpCodec p k k').plain.Valid x := rfl

theorem fp_plain_lawful (hk : p ≤ 256 ^ k) : (fpCodec p k k').plain.Lawful where
  round m v x rest _ := (fp_plain_de hk).mpr rfl
  size m x := length_leBytes _ _
  stream m v bs x rest h := ⟨_, (fp_plain_de hk).mp h, fun _ => (fp_plain_de hk).mpr rfl⟩
  validate m bs x rest := by rw [fp_plain_de hk, fp_plain_de hk]; simp [fp_valid]
  batch l := by simp [fpCodec, loopCheck_ok, Codec.Valid]

theorem fp_flags (hk : 4 * p ≤ 256 ^ k') {bs rest : Bytes} {x : ZMod p} {fl : SWFlags} :
    (fpCodec p k k').deFlags bs = .ok ((x, fl), rest) ↔ bs = (fpCodec p k k').serFlags x fl ++ rest := by
  have hp : 0 < p := Nat.pos_of_ne_zero (NeZero.ne p)
  obtain ⟨n, rfl⟩ : ∃ n, k' = n + 1 := by
    cases k' with
    | zero => simp at hk; omega
    | succ n => exact ⟨n, rfl⟩
  have hpow : 0 < 256 ^ n := by positivity
  rw [pow_succ] at hk
  simp only [fpCodec, ser_bind_ok, Prod.exists]
  constructor
  · rintro ⟨b, r, h1, h2⟩
    obtain ⟨rfl, hl⟩ := readExact_iff.mp h1
    obtain ⟨i, w, rfl, hi⟩ := exists_concat hl
    simp only [List.getLastD_concat] at h2
    cases hf : SWFlags.fromU8 w with
    | none => simp [hf] at h2
    | some g =>
      simp only [hf, onLast_concat] at h2
      split_ifs at h2 with h3
      simp only [ser_pure, Except.ok.injEq, Prod.mk.injEq] at h2
      obtain ⟨⟨rfl, rfl⟩, rfl⟩ := h2
      rw [ZMod.val_natCast_of_lt h3]
      have hlen : (i ++ [w &&& ~~~g.mask]).length = n + 1 := by simp [hi]
      rw [← hlen, leBytes_leNat, onLast_concat, (byte_flags w g hf).2]
  · rintro rfl
    have hv := ZMod.val_lt x
    obtain ⟨i, w, hw, hi⟩ := exists_concat (length_leBytes (n + 1) x.val)
    have hval : leNat (i ++ [w]) = x.val := by
      rw [← hw]; exact leNat_leBytes _ _ (by rw [pow_succ]; omega)
    have hw64 : w.toNat < 64 := by
      rw [leNat_concat, hi] at hval
      by_contra hcon
      have : 256 ^ n * 64 ≤ 256 ^ n * w.toNat := Nat.mul_le_mul_left _ (by omega)
      omega
    refine ⟨i ++ [w ||| fl.mask], rest, readExact_iff.mpr ⟨?_, by simp [hi]⟩, ?_⟩
    · rw [hw, onLast_concat]
    · simp only [List.getLastD_concat, (flags_byte w fl hw64).1, onLast_concat, (flags_byte w fl hw64).2, hval, if_pos hv]
      rw [ZMod.natCast_val, ZMod.cast_id, ser_pure]

theorem fp_lawful (hk : p ≤ 256 ^ k) (hk' : 4 * p ≤ 256 ^ k') : (fpCodec p k k').Lawful where
  plain := fp_plain_lawful hk
  canonical := fun _ _ _ _ _ h => (fp_plain_de hk).mp h
  valid := fp_valid
  fixed _ _ := rfl
  flags _ _ _ _ := fp_flags hk'
  sizeFlags x fl := by simp [fpCodec, length_onLast, length_leBytes]
  fixedFlags _ := rfl

end fp

section quad
variable {C : Type} [Zero B] [Zero C] {c : FieldCodec B} {mk : B × B → C} {fields : C → B × B}

theorem FieldCodec.Lawful.de (h : c.Lawful) {m v} {bs rest : Bytes} {x : B} :
    c.plain.de m v bs = .ok (x, rest) ↔ bs = c.plain.ser m x ++ rest :=
  ⟨h.canonical m v bs x rest, fun e => by rw [e]; exact h.plain.round m v x rest fun _ => h.valid x⟩

theorem FieldCodec.Lawful.size_ser (h : c.Lawful) (m : Compress) (x : B) : (c.plain.ser m x).length = c.plain.size .Yes 0 := by
  rw [h.plain.size, h.fixed]

theorem quad_lawful (h : c.Lawful) (h1 : ∀ a, fields (mk a) = a) (h2 : ∀ b, mk (fields b) = b) : (quadCodec c mk fields).Lawful := by
  have good := struct_good h1 h2 (prod_good h.plain.good h.plain.good) (fits' := fun _ => True)
    (valid' := fun b => c.plain.Valid (fields b).1 ∧ c.plain.Valid (fields b).2) (by simp) (fun _ => Iff.rfl)
  refine ⟨⟨fun m v x rest hv => good.round m v x rest trivial fun _ => ⟨h.valid _, h.valid _⟩, good.size,
    fun m v bs x rest hd => (good.stream m v bs x rest hd).2, fun m bs x rest => ?_, fun l => ?_⟩,
    struct_canonical h1 h2 (prod_canonical h.canonical h.canonical), fun x => (good.check x).mpr ⟨h.valid _, h.valid _⟩,
    fun m x => ?_, fun bs x fl rest => ?_, fun x fl => ?_, fun x => ?_⟩
  · rw [show (quadCodec c mk fields).plain.Valid x ↔ _ from good.check x]; exact good.validate m bs x rest
  · exact (good.batch l).trans (forall₂_congr fun x _ => (good.check x).symm)
  · show c.plain.size m (fields x).1 + c.plain.size m (fields x).2 = c.plain.size .Yes (fields 0).1 + c.plain.size .Yes (fields 0).2
    rw [h.fixed m, h.fixed m, h.fixed .Yes (fields 0).1, h.fixed .Yes (fields 0).2]
  · simp only [quadCodec, ser_bind_ok, Prod.exists, ser_pure, Except.ok.injEq, Prod.mk.injEq]
    constructor
    · rintro ⟨a, b1, e1, b, g, b2, e2, ⟨rfl, rfl⟩, rfl⟩
      rw [h.de.mp e1, (h.flags _ _ _ _).mp e2, h1]
      simp
    · rintro rfl
      exact ⟨(fields x).1, c.serFlags (fields x).2 fl ++ rest, h.de.mpr (by simp), (fields x).2, fl, rest, (h.flags _ _ _ _).mpr rfl,
        ⟨h2 x, rfl⟩, rfl⟩
  · simp [quadCodec, h.sizeFlags, h.plain.size]
  · show c.plain.size .Yes (fields x).1 + c.sizeFlags (fields x).2 = c.plain.size .Yes (fields 0).1 + c.sizeFlags (fields 0).2
    rw [h.fixed, h.fixedFlags, h.fixed _ (fields 0).1, h.fixedFlags (fields 0).2]

theorem cubic_lawful {mk : B × B × B → C} {fields : C → B × B × B} (h : c.Lawful) (h1 : ∀ a, fields (mk a) = a) (h2 : ∀ b, mk (fields b) = b) :
    (cubicCodec c mk fields).Lawful := by
  have good := struct_good h1 h2 (prod_good h.plain.good (prod_good h.plain.good h.plain.good)) (fits' := fun _ => True)
    (valid' := fun b => c.plain.Valid (fields b).1 ∧ c.plain.Valid (fields b).2.1 ∧ c.plain.Valid (fields b).2.2) (by simp) (fun _ => Iff.rfl)
  refine ⟨⟨fun m v x rest hv => good.round m v x rest trivial fun _ => ⟨h.valid _, h.valid _, h.valid _⟩, good.size,
    fun m v bs x rest hd => (good.stream m v bs x rest hd).2, fun m bs x rest => ?_, fun l => ?_⟩,
    struct_canonical h1 h2 (prod_canonical h.canonical (prod_canonical h.canonical h.canonical)),
    fun x => (good.check x).mpr ⟨h.valid _, h.valid _, h.valid _⟩, fun m x => ?_, fun bs x fl rest => ?_, fun x fl => ?_, fun x => ?_⟩
  · rw [show (cubicCodec c mk fields).plain.Valid x ↔ _ from good.check x]; exact good.validate m bs x rest
  · exact (good.batch l).trans (forall₂_congr fun x _ => (good.check x).symm)
  · show c.plain.size m (fields x).1 + (c.plain.size m (fields x).2.1 + c.plain.size m (fields x).2.2) =
      c.plain.size .Yes (fields 0).1 + (c.plain.size .Yes (fields 0).2.1 + c.plain.size .Yes (fields 0).2.2)
    rw [h.fixed m, h.fixed m, h.fixed m, h.fixed .Yes (fields 0).1, h.fixed .Yes (fields 0).2.1, h.fixed .Yes (fields 0).2.2]
  · simp only [cubicCodec, ser_bind_ok, Prod.exists, ser_pure, Except.ok.injEq, Prod.mk.injEq]
    constructor
    · rintro ⟨a, b1, e1, b, b2, e2, d, g, b3, e3, ⟨rfl, rfl⟩, rfl⟩
      rw [h.de.mp e1, h.de.mp e2, (h.flags _ _ _ _).mp e3, h1]
      simp
    · rintro rfl
      exact ⟨(fields x).1, c.plain.ser .Yes (fields x).2.1 ++ (c.serFlags (fields x).2.2 fl ++ rest), h.de.mpr (by simp), (fields x).2.1,
        c.serFlags (fields x).2.2 fl ++ rest, h.de.mpr rfl, (fields x).2.2, fl, rest, (h.flags _ _ _ _).mpr rfl, ⟨h2 x, rfl⟩, rfl⟩
  · simp [cubicCodec, h.sizeFlags, h.plain.size]
  · show c.plain.size .Yes (fields x).1 + (c.plain.size .Yes (fields x).2.1 + c.sizeFlags (fields x).2.2) =
      c.plain.size .Yes (fields 0).1 + (c.plain.size .Yes (fields 0).2.1 + c.sizeFlags (fields 0).2.2)
    rw [h.fixed _ (fields x).1, h.fixed _ (fields x).2.1, h.fixedFlags, h.fixed _ (fields 0).1, h.fixed _ (fields 0).2.1, h.fixedFlags (fields 0).2.2]

end quad

section curve
variable [Field B] [DecidableEq B] {E : SWCurve B} {c : FieldCodec B}

theorem SWCurve.check_iff (P : Affine B) : (E.codec c).Valid P ↔ E.onCurve P = true ∧ E.inSubgroup P = true := by
  simp only [Codec.Valid, SWCurve.codec, SWCurve.check]
  split_ifs with h
  · simpa using h
  · simp only [Bool.and_eq_true] at h; simp [h]

theorem SWCurve.onCurve_iff (x y : B) : E.onCurve ⟨x, y, false⟩ = true ↔ y * y = E.rhs x := by simp [SWCurve.onCurve]

omit [DecidableEq B] in
theorem SWCurve.ys_iff (hE : E.Lawful) (x y : B) (fl : SWFlags) (hf : fl ≠ .PointAtInfinity) :
    (∃ y0 y1, E.ysFromX x = some (y0, y1) ∧ y = if fl = .YIsPositive then y0 else y1) ↔
      y * y = E.rhs x ∧ (fl = E.toFlags ⟨x, y, false⟩ ∨ y = -y) := by
  have hflag : E.toFlags ⟨x, y, false⟩ = if E.le y (-y) then .YIsPositive else .YIsNegative := by simp [SWCurve.toFlags]
  rw [hflag]
  have hfl : fl = .YIsPositive ∨ fl = .YIsNegative := by cases fl <;> simp_all
  cases hs : E.sqrt (E.rhs x) with
  | none =>
    simp only [SWCurve.ysFromX, hs, Option.bind_eq_bind, Option.bind_none, reduceCtorEq, false_and, exists_const, false_iff, not_and]
    exact fun h => absurd h (hE.complete _ _ hs)
  | some r =>
    have hr := hE.root _ _ hs
    have hpm : y * y = E.rhs x ↔ y = r ∨ y = -r := by
      rw [← hr]; exact mul_self_eq_mul_self_iff
    rw [hpm]
    simp only [SWCurve.ysFromX, hs, Option.bind_eq_bind, Option.bind_some]
    by_cases hle : E.le (-r) r = true
    · rw [if_pos hle]
      simp only [Option.some.injEq, Prod.mk.injEq]
      constructor
      · rintro ⟨y0, y1, ⟨rfl, rfl⟩, rfl⟩
        rcases hfl with rfl | rfl
        · simp [hle]
        · simp only [reduceCtorEq, if_false, true_or, true_and]
          by_cases h2 : E.le r (-r) = true
          · exact .inr (hE.antisymm r h2 hle)
          · exact .inl (by rw [if_neg h2])
      · rintro ⟨hy | hy, h⟩
        · subst hy
          refine ⟨_, _, ⟨rfl, rfl⟩, ?_⟩
          rcases h with h | h
          · split_ifs at h with h2
            · subst h; simpa using hE.antisymm y h2 hle
            · subst h; simp
          · split_ifs
            · exact h
            · rfl
        · subst hy
          refine ⟨_, _, ⟨rfl, rfl⟩, ?_⟩
          rw [neg_neg] at h
          rcases h with h | h
          · rw [if_pos hle] at h; simp [h]
          · split_ifs
            · rfl
            · exact h
    · have hle' : E.le r (-r) = true := (hE.total r).resolve_right hle
      rw [if_neg hle]
      simp only [Option.some.injEq, Prod.mk.injEq]
      constructor
      · rintro ⟨y0, y1, ⟨rfl, rfl⟩, rfl⟩
        rcases hfl with rfl | rfl
        · simp [hle']
        · simp [hle]
      · rintro ⟨hy | hy, h⟩
        · subst hy
          refine ⟨_, _, ⟨rfl, rfl⟩, ?_⟩
          rcases h with h | h
          · rw [if_pos hle'] at h; simp [h]
          · split_ifs
            · rfl
            · exact h
        · subst hy
          refine ⟨_, _, ⟨rfl, rfl⟩, ?_⟩
          rw [neg_neg] at h
          rcases h with h | h
          · rw [if_neg hle] at h; simp [h]
          · split_ifs
            · exact h
            · rfl

/-- Whether the check in `deserialize_with_mode` passes. -/
theorem SWCurve.tail_iff {v : Validate} {P Q : Affine B} {bs rest : Bytes} :
    (match v with
      | .Yes => do
        E.check Q
        pure (Q, bs)
      | .No => (pure (Q, bs) : Except SerErr (Affine B × Bytes))) = .ok (P, rest) ↔
      P = Q ∧ bs = rest ∧ (v = .Yes → (E.codec c).Valid P) := by
  cases v with
  | No => simp [ser_pure, eq_comm]
  | Yes =>
    simp only [ser_bind_ok, ser_pure, Except.ok.injEq, Prod.mk.injEq, forall_const]
    constructor
    · rintro ⟨_, h, rfl, rfl⟩; exact ⟨rfl, rfl, h⟩
    · rintro ⟨rfl, rfl, h⟩; exact ⟨(), h, rfl, rfl⟩

theorem SWCurve.de_compressed (hE : E.Lawful) (hc : c.Lawful) (v : Validate) (bs : Bytes) (P : Affine B) (rest : Bytes) :
    (E.codec c).de .Yes v bs = .ok (P, rest) ↔
      (P = Affine.identity ∧ ∃ x, bs = c.serFlags x .PointAtInfinity ++ rest) ∨
      (P.infinity = false ∧ E.onCurve P = true ∧ (v = .Yes → E.inSubgroup P = true) ∧
        ∃ fl, fl ≠ .PointAtInfinity ∧ (fl = E.toFlags P ∨ P.y = -P.y) ∧ bs = c.serFlags P.x fl ++ rest) := by
  simp only [SWCurve.codec, SWCurve.readCoords, ser_bind_ok, Prod.exists]
  constructor
  · rintro ⟨x, y, fl, r, ⟨x', g, r', h1, h2⟩, h3⟩
    have h1' := (hc.flags _ _ _ _).mp h1
    cases g with
    | PointAtInfinity =>
      simp only [ser_pure, Except.ok.injEq, Prod.mk.injEq] at h2
      obtain ⟨⟨rfl, rfl, rfl⟩, rfl⟩ := h2
      simp only [if_true, ser_pure, Except.ok.injEq, Prod.mk.injEq] at h3
      obtain ⟨rfl, rfl⟩ := h3
      exact .inl ⟨rfl, _, h1'⟩
    | YIsPositive =>
      cases hy : E.ysFromX x' with
      | none => simp [hy] at h2
      | some ys =>
        obtain ⟨y0, y1⟩ := ys
        simp only [hy, if_true, ser_pure, Except.ok.injEq, Prod.mk.injEq] at h2
        obtain ⟨⟨rfl, rfl, rfl⟩, rfl⟩ := h2
        rw [if_neg (by simp)] at h3
        obtain ⟨rfl, rfl, hv⟩ := (SWCurve.tail_iff (c := c)).mp h3
        obtain ⟨k1, k2⟩ := (SWCurve.ys_iff hE x' y0 .YIsPositive (by simp)).mp ⟨y0, y1, hy, by simp⟩
        exact .inr ⟨rfl, (SWCurve.onCurve_iff _ _).mpr k1, fun e => ((SWCurve.check_iff _).mp (hv e)).2, _, by simp, k2, h1'⟩
    | YIsNegative =>
      cases hy : E.ysFromX x' with
      | none => simp [hy] at h2
      | some ys =>
        obtain ⟨y0, y1⟩ := ys
        simp only [hy, reduceCtorEq, if_false, ser_pure, Except.ok.injEq, Prod.mk.injEq] at h2
        obtain ⟨⟨rfl, rfl, rfl⟩, rfl⟩ := h2
        rw [if_neg (by simp)] at h3
        obtain ⟨rfl, rfl, hv⟩ := (SWCurve.tail_iff (c := c)).mp h3
        obtain ⟨k1, k2⟩ := (SWCurve.ys_iff hE x' y1 .YIsNegative (by simp)).mp ⟨y0, y1, hy, by simp⟩
        exact .inr ⟨rfl, (SWCurve.onCurve_iff _ _).mpr k1, fun e => ((SWCurve.check_iff _).mp (hv e)).2, _, by simp, k2, h1'⟩
  · rintro (⟨rfl, x, rfl⟩ | ⟨hi, ho, hs, fl, hne, hfl, rfl⟩)
    · exact ⟨0, 0, .PointAtInfinity, rest, ⟨x, _, _, (hc.flags _ _ _ _).mpr rfl, rfl⟩, by simp [ser_pure]⟩
    · obtain ⟨x, y, i⟩ := P
      simp only at hi
      subst hi
      obtain ⟨y0, y1, hy, hyy⟩ := (SWCurve.ys_iff hE x y fl hne).mpr ⟨(SWCurve.onCurve_iff _ _).mp ho, hfl⟩
      refine ⟨x, y, fl, rest, ⟨x, fl, rest, (hc.flags _ _ _ _).mpr rfl, ?_⟩, ?_⟩
      · cases fl with
        | PointAtInfinity => exact absurd rfl hne
        | YIsPositive => simp only [hy, if_true, ser_pure]; rw [if_pos rfl] at hyy; rw [hyy]
        | YIsNegative => simp only [hy, reduceCtorEq, if_false, ser_pure]; rw [if_neg (by simp)] at hyy; rw [hyy]
      · rw [if_neg hne]
        exact (SWCurve.tail_iff (c := c)).mpr ⟨rfl, rfl, fun e => (SWCurve.check_iff _).mpr ⟨ho, hs e⟩⟩

theorem SWCurve.de_uncompressed (hc : c.Lawful) (v : Validate) (bs : Bytes) (P : Affine B) (rest : Bytes) :
    (E.codec c).de .No v bs = .ok (P, rest) ↔
      (P = Affine.identity ∧ ∃ x y, bs = c.plain.ser .No x ++ c.serFlags y .PointAtInfinity ++ rest) ∨
      (P.infinity = false ∧ (v = .Yes → E.onCurve P = true ∧ E.inSubgroup P = true) ∧
        ∃ fl, fl ≠ .PointAtInfinity ∧ bs = c.plain.ser .No P.x ++ c.serFlags P.y fl ++ rest) := by
  simp only [SWCurve.codec, SWCurve.readCoords, ser_bind_ok, Prod.exists, ser_pure, Except.ok.injEq, Prod.mk.injEq]
  constructor
  · rintro ⟨x, y, fl, r, ⟨x', r1, h1, y', g, r2, h2, ⟨rfl, rfl, rfl⟩, rfl⟩, h3⟩
    have h1' := hc.de.mp h1
    have h2' := (hc.flags _ _ _ _).mp h2
    rw [h2', ← List.append_assoc] at h1'
    split_ifs at h3 with hf
    · simp only [Except.ok.injEq, Prod.mk.injEq] at h3
      obtain ⟨rfl, rfl⟩ := h3
      subst hf
      exact .inl ⟨rfl, _, _, h1'⟩
    · obtain ⟨rfl, rfl, hv⟩ := (SWCurve.tail_iff (c := c)).mp h3
      exact .inr ⟨rfl, fun e => (SWCurve.check_iff _).mp (hv e), _, hf, h1'⟩
  · rintro (⟨rfl, x, y, rfl⟩ | ⟨hi, hs, fl, hne, rfl⟩)
    · exact ⟨x, y, .PointAtInfinity, rest, ⟨x, c.serFlags y .PointAtInfinity ++ rest, hc.de.mpr (by simp), y, _, _,
        (hc.flags _ _ _ _).mpr rfl, ⟨rfl, rfl, rfl⟩, rfl⟩, by simp⟩
    · obtain ⟨x, y, i⟩ := P
      simp only at hi
      subst hi
      refine ⟨x, y, fl, rest, ⟨x, c.serFlags y fl ++ rest, hc.de.mpr (by simp), y, _, _, (hc.flags _ _ _ _).mpr rfl, ⟨rfl, rfl, rfl⟩, rfl⟩, ?_⟩
      rw [if_neg hne]
      exact (SWCurve.tail_iff (c := c)).mpr ⟨rfl, rfl, fun e => (SWCurve.check_iff _).mpr (hs e)⟩

theorem SWCurve.proper_iff (P : Affine B) : E.proper P = true ↔ P = Affine.identity ∨ (P.infinity = false ∧ E.onCurve P = true) := by
  obtain ⟨x, y, i⟩ := P
  cases i
  · have h1 : E.proper ⟨x, y, false⟩ = true ↔ y * y = E.rhs x := by
      simp [SWCurve.proper, SWCurve.rhs, Affine.identity]
    rw [h1, SWCurve.onCurve_iff]
    simp [Affine.identity]
  · simp [SWCurve.proper, Affine.identity]

omit [DecidableEq B] in
theorem SWCurve.toFlags_ne {P : Affine B} (h : P.infinity = false) : E.toFlags P ≠ .PointAtInfinity := by
  simp only [SWCurve.toFlags, h]
  split_ifs <;> simp_all

theorem SWCurve.valid_identity (hE : E.Lawful) : (E.codec c).Valid Affine.identity :=
  (SWCurve.check_iff _).mpr ⟨by simp [SWCurve.onCurve, Affine.identity], hE.identity⟩

theorem SWCurve.orderly (hE : E.Lawful) (hc : c.Lawful) : (E.codec c).Orderly where
  stream m v bs P rest h := by
    cases m with
    | Yes =>
      rcases (SWCurve.de_compressed hE hc _ _ _ _).mp h with ⟨h1, x, rfl⟩ | ⟨h1, h2, h3, fl, h4, h5, rfl⟩
      · exact ⟨_, rfl, fun _ => (SWCurve.de_compressed hE hc _ _ _ _).mpr (.inl ⟨h1, x, rfl⟩)⟩
      · exact ⟨_, rfl, fun _ => (SWCurve.de_compressed hE hc _ _ _ _).mpr (.inr ⟨h1, h2, h3, fl, h4, h5, rfl⟩)⟩
    | No =>
      rcases (SWCurve.de_uncompressed hc _ _ _ _).mp h with ⟨h1, x, y, rfl⟩ | ⟨h1, h2, fl, h3, rfl⟩
      · exact ⟨_, rfl, fun _ => (SWCurve.de_uncompressed hc _ _ _ _).mpr (.inl ⟨h1, x, y, rfl⟩)⟩
      · exact ⟨_, rfl, fun _ => (SWCurve.de_uncompressed hc _ _ _ _).mpr (.inr ⟨h1, h2, fl, h3, rfl⟩)⟩
  validate m bs P rest := by
    have hid := SWCurve.valid_identity (c := c) hE
    cases m with
    | Yes =>
      rw [SWCurve.de_compressed hE hc, SWCurve.de_compressed hE hc]
      constructor
      · rintro (⟨rfl, h⟩ | ⟨h1, h2, h3, h4⟩)
        · exact ⟨.inl ⟨rfl, h⟩, hid⟩
        · exact ⟨.inr ⟨h1, h2, by simp, h4⟩, (SWCurve.check_iff _).mpr ⟨h2, h3 rfl⟩⟩
      · rintro ⟨⟨rfl, h⟩ | ⟨h1, h2, -, h4⟩, hv⟩
        · exact .inl ⟨rfl, h⟩
        · exact .inr ⟨h1, h2, fun _ => ((SWCurve.check_iff _).mp hv).2, h4⟩
    | No =>
      rw [SWCurve.de_uncompressed hc, SWCurve.de_uncompressed hc]
      constructor
      · rintro (⟨rfl, h⟩ | ⟨h1, h2, h4⟩)
        · exact ⟨.inl ⟨rfl, h⟩, hid⟩
        · exact ⟨.inr ⟨h1, by simp, h4⟩, (SWCurve.check_iff _).mpr (h2 rfl)⟩
      · rintro ⟨⟨rfl, h⟩ | ⟨h1, -, h4⟩, hv⟩
        · exact .inl ⟨rfl, h⟩
        · exact .inr ⟨h1, fun _ => (SWCurve.check_iff _).mp hv, h4⟩
  batch l := loopCheck_iff _ l

theorem SWCurve.ser_identity (m : Compress) : (E.codec c).ser m Affine.identity = match m with
    | .Yes => c.serFlags 0 .PointAtInfinity
    | .No => c.plain.ser .No 0 ++ c.serFlags 0 .PointAtInfinity := rfl

theorem SWCurve.ser_finite {P : Affine B} (h : P.infinity = false) (m : Compress) : (E.codec c).ser m P = match m with
    | .Yes => c.serFlags P.x (E.toFlags P)
    | .No => c.plain.ser .No P.x ++ c.serFlags P.y (E.toFlags P) := by
  simp only [SWCurve.codec, h]
  cases m <;> rfl

theorem SWCurve.returns_compressed (hE : E.Lawful) (hc : c.Lawful) (P : Affine B) :
    (E.codec c).Returns .Yes P ↔ P = Affine.identity ∨ (P.infinity = false ∧ E.onCurve P = true) := by
  constructor
  · intro h
    rcases (SWCurve.de_compressed hE hc _ _ _ _).mp (h []) with ⟨h1, -⟩ | ⟨h1, h2, -⟩
    · exact .inl h1
    · exact .inr ⟨h1, h2⟩
  · rintro (rfl | ⟨h1, h2⟩) rest
    · exact (SWCurve.de_compressed hE hc _ _ _ _).mpr (.inl ⟨rfl, 0, rfl⟩)
    · rw [SWCurve.ser_finite h1]
      exact (SWCurve.de_compressed hE hc _ _ _ _).mpr (.inr ⟨h1, h2, by simp, _, SWCurve.toFlags_ne h1, .inl rfl, rfl⟩)

theorem SWCurve.returns_uncompressed (hc : c.Lawful) (P : Affine B) :
    (E.codec c).Returns .No P ↔ P = Affine.identity ∨ P.infinity = false := by
  constructor
  · intro h
    rcases (SWCurve.de_uncompressed hc _ _ _ _).mp (h []) with ⟨h1, -⟩ | ⟨h1, -⟩
    · exact .inl h1
    · exact .inr h1
  · rintro (rfl | h1) rest
    · exact (SWCurve.de_uncompressed hc _ _ _ _).mpr (.inl ⟨rfl, 0, 0, rfl⟩)
    · rw [SWCurve.ser_finite h1]
      exact (SWCurve.de_uncompressed hc _ _ _ _).mpr (.inr ⟨h1, by simp, _, SWCurve.toFlags_ne h1, rfl⟩)

omit [DecidableEq B] in
theorem FieldCodec.Lawful.inj (hc : c.Lawful) {x y : B} {fl g : SWFlags} (h : c.serFlags x fl = c.serFlags y g) : x = y ∧ fl = g := by
  have h1 := (hc.flags _ x fl []).mpr rfl
  rw [h, (hc.flags _ y g []).mpr rfl] at h1
  simp only [Except.ok.injEq, Prod.mk.injEq, and_true] at h1
  exact ⟨h1.1.symm, h1.2.symm⟩

theorem SWCurve.size (hc : c.Lawful) (m : Compress) (P : Affine B) : ((E.codec c).ser m P).length = (E.codec c).size m P := by
  cases m <;> simp only [SWCurve.codec] <;> split <;> rename_i h <;>
    simp only [List.length_append, hc.sizeFlags, hc.size_ser] <;> rw [hc.fixedFlags]

end curve

section output
variable {T : Type} {c : Codec T} {p : T → Bool}

theorem output_valid (f : T) : (outputCodec c p).Valid f ↔ p f = true := by
  simp only [Codec.Valid, outputCodec, outputCheck]; split_ifs with h <;> simp [h]

theorem output_de {m v} {bs rest : Bytes} {f : T} :
    (outputCodec c p).de m v bs = .ok (f, rest) ↔ c.de m .No bs = .ok (f, rest) ∧ (v = .Yes → p f = true) := by
  cases v with
  | No =>
    simp only [outputCodec, ser_bind_ok, Prod.exists, ser_pure, Except.ok.injEq, Prod.mk.injEq, reduceCtorEq, false_imp_iff, and_true]
    exact ⟨fun ⟨_, _, h, h1, h2⟩ => by rw [← h1, ← h2]; exact h, fun h => ⟨_, _, h, rfl, rfl⟩⟩
  | Yes =>
    simp only [outputCodec, ser_bind_ok, Prod.exists, ser_pure, Except.ok.injEq, Prod.mk.injEq, forall_const]
    constructor
    · rintro ⟨a, b, h, _, h1, rfl, rfl⟩
      exact ⟨h, (output_valid (c := c) a).mp h1⟩
    · rintro ⟨h, h1⟩
      exact ⟨f, rest, h, (), (output_valid (c := c) f).mpr h1, rfl, rfl⟩

theorem output_lawful (h : c.Lawful) : (outputCodec c p).Lawful where
  round m v x rest hv := output_de.mpr ⟨h.round m .No x rest (by simp), fun e => (output_valid x).mp (hv e)⟩
  size := h.size
  stream m v bs x rest hd := by
    obtain ⟨h1, h2⟩ := output_de.mp hd
    obtain ⟨used, e, k⟩ := h.stream _ _ _ _ _ h1
    exact ⟨used, e, fun rest' => output_de.mpr ⟨k rest', h2⟩⟩
  validate m bs x rest := by rw [output_de, output_de, output_valid]; simp
  batch l := loopCheck_iff _ l

theorem output_canonical (h : c.Canonical) : (outputCodec c p).Canonical :=
  fun m _ bs x rest hd => h m .No bs x rest (output_de.mp hd).1

end output

section only
variable {c : Codec α} {p : α → Bool}

theorem only_de {m v} {bs rest : Bytes} {x : {x // p x = true}} :
    (c.only p).de m v bs = .ok (x, rest) ↔ c.de m v bs = .ok (x.1, rest) := by
  simp only [Codec.only, ser_bind_ok, Prod.exists]
  constructor
  · rintro ⟨a, r, h1, h2⟩
    split_ifs at h2 with h
    simp only [ser_pure, Except.ok.injEq, Prod.mk.injEq] at h2
    rw [← h2.1, ← h2.2]
    exact h1
  · intro h
    exact ⟨x.1, rest, h, by rw [dif_pos x.2]; rfl⟩

theorem only_reads {m v} {bs : Bytes} {x : {x // p x = true}} : (c.only p).Reads m v x bs ↔ c.Reads m v x.1 bs :=
  forall_congr' fun _ => only_de

theorem only_orderly (h : c.Orderly) : (c.only p).Orderly where
  stream m v bs x rest hd := by
    obtain ⟨used, e, k⟩ := h.stream _ _ _ _ _ (only_de.mp hd)
    exact ⟨used, e, only_reads.mpr k⟩
  validate m bs x rest := by rw [only_de, only_de]; exact h.validate m bs x.1 rest
  batch l := by
    show c.batchCheck (l.map (·.1)) = .ok () ↔ _
    rw [h.batch, List.forall_mem_map]
    rfl

theorem only_lawful (h : c.Orderly) (hs : ∀ m x, (c.ser m x).length = c.size m x) (hr : ∀ m x, p x = true → c.Returns m x) :
    (c.only p).Lawful where
  round m v x rest hv := by
    cases v with
    | No => exact only_de.mpr (hr m x.1 x.2 rest)
    | Yes => exact ((only_orderly h).validate _ _ _ _).mpr ⟨only_de.mpr (hr m x.1 x.2 rest), hv rfl⟩
  size m x := hs m x.1
  stream := (only_orderly h).stream
  validate := (only_orderly h).validate
  batch := (only_orderly h).batch

theorem eachIn_map {β : Type} (f : α → β) (R : β → Bytes → Prop) (l : List α) (bs : Bytes) :
    EachIn R (l.map f) bs ↔ EachIn (fun a => R (f a)) l bs := by
  induction l generalizing bs with
  | nil => rfl
  | cons a l ih => simp only [List.map_cons, EachIn, ih]

theorem vecIn_map {β : Type} (f : α → β) (R : β → Bytes → Prop) (l : List α) (bs : Bytes) :
    VecIn R (l.map f) bs ↔ VecIn (fun a => R (f a)) l bs := by
  simp only [VecIn, Fits64, List.length_map, eachIn_map]

theorem eachIn_mem {R : α → Bytes → Prop} {l : List α} {bs : Bytes} (h : EachIn R l bs) {a : α} (ha : a ∈ l) : ∃ b, R a b := by
  induction l generalizing bs with
  | nil => simp at ha
  | cons a' l ih =>
    obtain ⟨b, b', -, h1, h2⟩ := h
    rcases List.mem_cons.mp ha with rfl | ha
    · exact ⟨b, h1⟩
    · exact ih h2 ha

theorem vecIn_mem {R : α → Bytes → Prop} {l : List α} {bs : Bytes} (h : VecIn R l bs) {a : α} (ha : a ∈ l) : ∃ b, R a b := by
  obtain ⟨-, b, -, h⟩ := h
  exact eachIn_mem h ha

/-- A list of values with a property is a list over the subtype. -/
theorem list_lift (l : List α) (h : ∀ a ∈ l, p a = true) : ∃ l' : List {x // p x = true}, l'.map (·.1) = l := by
  lift l to List {x // p x = true} using h
  exact ⟨l, rfl⟩

end only
end GS
