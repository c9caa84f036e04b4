import Verif.Lemmas.Bits
import Verif.Lemmas.BlsField
import Verif.Lemmas.CodecMaps
import Verif.Lemmas.Tower
import Verif.Model.WordPoints
import Verif.Spec.TowerPoint
import Verif.Spec.Words

/-! # Square roots and points with the operations of words -/

set_option linter.unusedSectionVars false

namespace GS.Tower
open Words

section
variable {R S : Type} [Ops R] [DecidableEq R] [Field S] [DecidableEq S] {φ : R → S}

theorem eq_iff (h : Models φ) {a b : R} : a = b ↔ φ a = φ b := ⟨congrArg φ, fun e => h.bij.1 e⟩

theorem pow_bits (h : Models φ) (a : R) (n : Nat) : φ (n.bits.reverse.foldl (fun res b => if b then square res * a else square res) 1) = φ a ^ n := by
  induction n using Nat.strong_induction_on with
  | _ n ih =>
    by_cases h0 : n = 0
    · subst h0; simp [h.one]
    · rw [bits_succ h0, List.reverse_cons, List.foldl_append]
      simp only [List.foldl_cons, List.foldl_nil]
      have ih := ih (n / 2) (by omega)
      by_cases hb : n.testBit 0
      · rw [if_pos hb, h.mul, h.square, ih, ← pow_mul, ← pow_succ]
        congr 1
        rw [Nat.testBit_zero] at hb; simp only [decide_eq_true_eq] at hb; omega
      · rw [if_neg hb, h.square, ih, ← pow_mul]
        congr 1
        rw [Nat.testBit_zero] at hb; simp only [decide_eq_true_eq] at hb; omega

theorem pow_models (h : Models φ) (a : R) {n : Nat} {e : List Nat} (he : IsWords n e) : φ (powW a e) = φ a ^ val e := by
  rw [powW, withoutLeadingZeros_eq he]
  exact pow_bits h a _

theorem sqrt_models (h : Models φ) (a : R) : (sqrtW a).map φ = sqrtFq (φ a) := by
  have hp := pow_models h a (isWords_ofNat 6 ((p381 + 1) / 4))
  rw [val_ofNat (by decide +kernel)] at hp
  simp only [sqrtW, sqrtFq, eq_iff h, h.square, hp, pow_two]
  split
  · simp only [Option.map_some, hp]
  · rfl

theorem isQr_models (h : Models φ) (a : R) : isQrW a = isQr (φ a) := by
  have hp := pow_models h a (isWords_ofNat 6 ((p381 - 1) / 2))
  rw [val_ofNat (by decide +kernel)] at hp
  simp only [isQrW, isQr, eq_iff h, hp, h.zero, h.one]
  by_cases h0 : φ a ^ ((p381 - 1) / 2) = 0
  · rw [if_pos h0, h0]; simp
  · rw [if_neg h0]

/-- The square root never panics. -/
theorem sqrt2_models [Fintype S] [Fact (∀ r : S, r ^ 2 ≠ -1 + 0 * r)] (hc : Fintype.card S = p381) (h : Models φ) (h2 : Models (val2 φ)) {twoInv : R} (ht : φ twoInv = 2⁻¹) (a : Fp2 R) :
    ∃ r, sqrt2W twoInv a = some r ∧ r.map (val2 φ) = sqrtFq2 (val2 φ a) := by
  have h1 : φ (-1) ≠ 0 := by rw [h.neg, h.one]; simp
  by_cases hz : a.c1 = 0
  · have hz' : (val2 φ a).im = 0 := by show φ a.c1 = 0; rw [hz, h.zero]
    simp only [sqrt2W, sqrtFq2, if_pos hz, if_pos hz', isQr_models h]
    by_cases hq : isQr (φ a.c0) = true
    · have hq' : isQr (val2 φ a).re = true := hq
      rw [if_pos hq, if_pos hq']
      refine ⟨_, rfl, ?_⟩
      show _ = (sqrtFq (φ a.c0)).map _
      rw [← sqrt_models h, Option.map_map, Option.map_map]
      congr 1
      funext x
      show (⟨φ x, φ 0⟩ : Fq2 S) = ⟨φ x, 0⟩
      rw [h.zero]
    · have hq' : ¬ isQr (val2 φ a).re = true := hq
      rw [if_neg hq, if_neg hq']
      obtain ⟨i, hi, hi'⟩ := h.inverse (-1) h1
      rw [hi]
      refine ⟨_, rfl, ?_⟩
      show _ = (sqrtFq (φ a.c0 / -1)).map _
      have e : φ a.c0 / -1 = φ (a.c0 * i) := by rw [h.mul, hi', h.neg, h.one, div_eq_mul_inv]
      rw [e, ← sqrt_models h, Option.map_map, Option.map_map]
      congr 1
      funext x
      show (⟨φ 0, φ x⟩ : Fq2 S) = ⟨0, φ x⟩
      rw [h.zero]
  · have hz' : (val2 φ a).im ≠ 0 := by
      show φ a.c1 ≠ 0
      rw [← h.zero]
      exact fun e => hz (h.bij.1 e)
    simp only [sqrt2W, sqrtFq2, if_neg hz, if_neg hz']
    have en : φ (square a.c0 - -(square a.c1)) = (val2 φ a).re * (val2 φ a).re + (val2 φ a).im * (val2 φ a).im := by
      rw [h.sub, h.neg, h.square, h.square]
      show φ a.c0 ^ 2 - -(φ a.c1 ^ 2) = φ a.c0 * φ a.c0 + φ a.c1 * φ a.c1
      ring
    have es := sqrt_models h (square a.c0 - -(square a.c1))
    rw [en] at es
    cases hs : sqrtW (square a.c0 - -(square a.c1)) with
    | none => rw [hs] at es; rw [← es]; exact ⟨none, rfl, rfl⟩
    | some alpha =>
      rw [hs, Option.map_some] at es
      obtain ⟨c0, hc0, hc0'⟩ := deltaFq2_root hc (val2 φ a) hz' (φ alpha) (sqrtFq_some es.symm)
      have ed : φ (if isQrW ((alpha + a.c0) * twoInv) then (alpha + a.c0) * twoInv else (alpha + a.c0) * twoInv - alpha) = deltaFq2 (val2 φ a) (φ alpha) := by
        have e : φ ((alpha + a.c0) * twoInv) = (φ alpha + (val2 φ a).re) * 2⁻¹ := by rw [h.mul, h.add, ht]; rfl
        simp only [deltaFq2, isQr_models h, e]
        split
        · exact e
        · rw [h.sub, e]
      have er := sqrt_models h (if isQrW ((alpha + a.c0) * twoInv) then (alpha + a.c0) * twoInv else (alpha + a.c0) * twoInv - alpha)
      rw [ed, hc0] at er
      cases hr : sqrtW (if isQrW ((alpha + a.c0) * twoInv) then (alpha + a.c0) * twoInv else (alpha + a.c0) * twoInv - alpha) with
      | none => rw [hr] at er; simp at er
      | some y =>
        rw [hr, Option.map_some] at er
        have ey : φ y = c0 := Option.some.inj er
        obtain ⟨i, hi, hi'⟩ := h.inverse y (by rw [ey]; exact hc0')
        refine ⟨if square (⟨y, a.c1 * twoInv * i⟩ : Fp2 R) = a then some ⟨y, a.c1 * twoInv * i⟩ else none, by simp only [hr, Option.bind_some, hi, Option.map_some], ?_⟩
        rw [← es]
        simp only [bind, Option.bind_some, hc0, eq_iff h2, h2.square, pow_two]
        have ec : val2 φ ⟨y, a.c1 * twoInv * i⟩ = (⟨c0, (val2 φ a).im * 2⁻¹ * c0⁻¹⟩ : Fq2 S) := by
          show (⟨φ y, φ (a.c1 * twoInv * i)⟩ : Fq2 S) = _
          rw [h.mul, h.mul, ht, hi', ey]; rfl
        simp only [ec]
        split
        · rw [Option.map_some, ec]
        · rfl

end

/-! ## Points -/

section
variable {R S : Type} [Ops R] [DecidableEq R] [Field S] [DecidableEq S]

/-- The two curves, and what is given about coordinates, say the same; `ψ` gives the words of an element. -/
structure CurveFor (φ : R → S) (ψ : S → R) (E : SWCurve S) (E' : CurveW R) (c : BeField S) (c' : BeField R) : Prop where
  models : Models φ
  inv : ∀ x, φ (ψ x) = x
  a : E.a = 0
  b : φ E'.b = E.b
  sqrt : ∀ x, (E'.sqrt x).map φ = E.sqrt (φ x)
  le : ∀ x y, E'.le x y = E.le (φ x) (φ y)
  test : ∀ P, E'.test P = E.inSubgroup (valA φ P)
  size : c'.size = c.size
  enc : ∀ x, c'.enc x = c.enc (φ x)
  dec : ∀ b, b.length = c.size → (c'.dec b).map φ = c.dec b

namespace CurveFor
variable {φ : R → S} {ψ : S → R} {E : SWCurve S} {E' : CurveW R} {c : BeField S} {c' : BeField R} (h : CurveFor φ ψ E E' c c')
include h

theorem inv' (x : R) : ψ (φ x) = x := h.models.bij.1 (h.inv _)

theorem rhs (x : R) : φ (square x * x + E'.b) = E.rhs (φ x) := by
  rw [h.models.add, h.models.mul, h.models.square, h.b, SWCurve.rhs, h.a]; ring

theorem ys (x : R) : (E'.ysFromX x).map (Prod.map φ φ) = E.ysFromX (φ x) := by
  have e := h.sqrt (square x * x + E'.b)
  rw [h.rhs] at e
  rw [CurveW.ysFromX, SWCurve.ysFromX, ← e]
  cases E'.sqrt (square x * x + E'.b) with
  | none => rfl
  | some y =>
    simp only [Option.map_some, bind, Option.bind_some, h.le, h.models.neg]
    split <;> simp [Prod.map, h.models.neg]

theorem check (P : Affine R) : E'.check P = E.check (valA φ P) := by
  have e : E'.onCurve P = E.onCurve (valA φ P) := by
    rw [CurveW.onCurve, SWCurve.onCurve]
    congr 1
    rw [decide_eq_decide, eq_iff h.models, h.rhs, h.models.square, pow_two]
    rfl
  rw [CurveW.check, SWCurve.check, e, h.test]

theorem identity : valA φ (identityW : Affine R) = Affine.identity := by
  show (⟨φ 0, φ 0, true⟩ : Affine S) = ⟨0, 0, true⟩
  rw [h.models.zero]

theorem back (P : Affine R) : (⟨ψ (φ P.x), ψ (φ P.y), P.infinity⟩ : Affine R) = P := by rw [h.inv', h.inv']

theorem compressed (bs : Bytes) : (E'.compressed c' bs).map (Prod.map (valA φ) id) = E.blsCompressed c bs := by
  simp only [CurveW.compressed, SWCurve.blsCompressed, h.size]
  cases hr : readData c.size bs with
  | error e => rfl
  | ok x =>
    obtain ⟨b, bs'⟩ := x
    simp only [bind, Except.bind]
    cases BlsFlags.ofByte (b.headD 0) with
    | error e => rfl
    | ok fl =>
      simp only
      by_cases h1 : (!fl.compressed) = true
      · rw [if_pos h1, if_pos h1]; rfl
      rw [if_neg h1, if_neg h1]
      by_cases h2 : fl.infinity = true
      · rw [if_pos h2, if_pos h2]
        split
        · exact congrArg (fun P => Except.ok (P, bs')) h.identity
        · rfl
      rw [if_neg h2, if_neg h2]
      have hl : b.length = c.size := by
        unfold readData readExact at hr
        by_cases hlt : bs.length < c.size
        · rw [if_pos hlt] at hr; simp at hr
        · rw [if_neg hlt] at hr
          simp only [Except.ok.injEq, Prod.mk.injEq] at hr
          rw [← hr.1, List.length_take]; omega
      have hm : (maskFirst b).length = c.size := by cases b <;> exact hl
      rw [← h.dec _ hm]
      cases c'.dec (maskFirst b) with
      | none => rfl
      | some x =>
        simp only [Option.map_some, ← h.ys]
        cases E'.ysFromX x with
        | none => rfl
        | some ys =>
          simp only [Option.map_some, Prod.map]
          show Except.ok (valA φ ⟨x, if fl.largest then ys.2 else ys.1, false⟩, bs') = .ok (⟨φ x, if fl.largest then φ ys.2 else φ ys.1, false⟩, bs')
          rw [valA]
          split <;> rfl

theorem uncompressed (bs : Bytes) : (CurveW.uncompressed c' bs).map (Prod.map (valA φ) id) = SWCurve.blsUncompressed c bs := by
  simp only [CurveW.uncompressed, SWCurve.blsUncompressed, h.size]
  cases hr : readData (2 * c.size) bs with
  | error e => rfl
  | ok x =>
    obtain ⟨b, bs'⟩ := x
    simp only [bind, Except.bind]
    cases BlsFlags.ofByte (b.headD 0) with
    | error e => rfl
    | ok fl =>
      simp only
      by_cases h1 : fl.compressed = true
      · rw [if_pos h1, if_pos h1]; rfl
      rw [if_neg h1, if_neg h1]
      by_cases h2 : fl.infinity = true
      · rw [if_pos h2, if_pos h2]
        split
        · exact congrArg (fun P => Except.ok (P, bs')) h.identity
        · rfl
      rw [if_neg h2, if_neg h2]
      have hl : b.length = 2 * c.size := by
        unfold readData readExact at hr
        by_cases hlt : bs.length < 2 * c.size
        · rw [if_pos hlt] at hr; simp at hr
        · rw [if_neg hlt] at hr
          simp only [Except.ok.injEq, Prod.mk.injEq] at hr
          rw [← hr.1, List.length_take]; omega
      have hm : (maskFirst (b.take c.size)).length = c.size := by
        have : (b.take c.size).length = c.size := by rw [List.length_take]; omega
        cases hb : b.take c.size <;> rw [hb] at this <;> exact this
      rw [← h.dec _ hm, ← h.dec (b.drop c.size) (by rw [List.length_drop]; omega)]
      cases c'.dec (maskFirst (b.take c.size)) with
      | none => rfl
      | some x => cases c'.dec (b.drop c.size) <;> rfl

/-- Reading and writing with words. -/
theorem codec : Codec.Maps (fun P : Affine S => (⟨ψ P.x, ψ P.y, P.infinity⟩ : Affine R)) (E.blsCodec c) (E'.codec c') where
  ser m P := by
    have e0 : c'.enc (0 : R) = c.enc 0 := by rw [h.enc, h.models.zero]
    have ei : (identityW : Affine R).x = 0 ∧ (identityW : Affine R).y = 0 := ⟨rfl, rfl⟩
    simp only [CurveW.codec, SWCurve.blsCodec, h.le, h.models.neg, h.inv]
    by_cases hi : P.infinity = true
    · simp only [if_pos hi]
      cases m <;> simp only [ei, e0] <;> rfl
    · simp only [if_neg hi]
      cases m <;> simp only [h.enc, h.inv]
  size m P := by cases m <;> simp only [CurveW.codec, SWCurve.blsCodec, h.size]
  de m v bs := by
    have key : ∀ x : Except SerErr (Affine R × Bytes), ((do
          let (P, bs) ← x
          if v = .Yes ∧ E'.test P = false then .error .invalidData else pure (P, bs)) : Except SerErr (Affine R × Bytes)) =
        ((do
          let (P, bs) ← x.map (Prod.map (valA φ) id)
          if v = .Yes ∧ E.inSubgroup P = false then .error .invalidData else pure (P, bs)) : Except SerErr (Affine S × Bytes)).map
            (Prod.map (fun P : Affine S => (⟨ψ P.x, ψ P.y, P.infinity⟩ : Affine R)) id) := by
      intro x
      cases x with
      | error e => rfl
      | ok x =>
        obtain ⟨P, bs⟩ := x
        simp only [bind, Except.bind, Except.map, Prod.map, id, h.test]
        split
        · rfl
        · exact congrArg (fun P => Except.ok (P, bs)) (h.back P).symm
    cases m with
    | Yes => show (do let (P, bs) ← E'.compressed c' bs; _) = Except.map _ (do let (P, bs) ← E.blsCompressed c bs; _); rw [← h.compressed]; exact key _
    | No => show (do let (P, bs) ← CurveW.uncompressed c' bs; _) = Except.map _ (do let (P, bs) ← SWCurve.blsUncompressed c bs; _); rw [← h.uncompressed]; exact key _
  check P := by
    show E'.check _ = E.check P
    rw [h.check]
    congr 1
    simp only [valA, h.inv]
  batch l := loopCheck_map (fun P => by
    show E'.check _ = E.check P
    rw [h.check]
    congr 1
    simp only [valA, h.inv]) l

/-- Drawing a point with words. -/
theorem rand {σ G G' : Type} (Q : G' → G → Prop) {randB : σ → Option (S × σ)} {randB' : σ → Option (R × σ)} (hB : ∀ s, (randB' s).map (Prod.map φ id) = randB s)
    (bit : σ → Bool × σ) {clear : Affine S → G} {clear' : Affine R → G'} (hcl : ∀ P : Affine R, P.infinity = false → E.onCurve (valA φ P) = true → Q (clear' P) (clear (valA φ P)))
    (hroot : ∀ v r, E.sqrt v = some r → r * r = v) (n : Nat) : ∀ s : σ,
    Option.Rel (fun x y => Q x.1 y.1 ∧ x.2 = y.2) (E'.rand randB' bit clear' n s) (E.rand randB bit clear n s) := by
  induction n with
  | zero => intro s; exact .none
  | succ n ih =>
    intro s
    simp only [CurveW.rand, SWCurve.rand, ← hB]
    cases randB' s with
    | none => exact .none
    | some x =>
      obtain ⟨x, s1⟩ := x
      simp only [Option.map_some, Prod.map, id, SWCurve.pointFromX]
      have hy := h.ys x
      rw [← hy]
      cases hyx : E'.ysFromX x with
      | none => exact ih _
      | some ys =>
        have e : (⟨φ x, if (bit s1).1 = true then φ ys.2 else φ ys.1, false⟩ : Affine S) = valA φ ⟨x, if (bit s1).1 = true then ys.2 else ys.1, false⟩ := by
          rw [valA]; split <;> rfl
        simp only [Option.map_some, Prod.map, e]
        refine .some ⟨hcl _ rfl ?_, rfl⟩
        rw [hyx, Option.map_some] at hy
        have hon : ∀ y, y = φ ys.1 ∨ y = φ ys.2 → y * y = E.rhs (φ x) := by
          rw [SWCurve.ysFromX] at hy
          cases hs : E.sqrt (E.rhs (φ x)) with
          | none => rw [hs] at hy; simp at hy
          | some r =>
            rw [hs] at hy
            have hr := hroot _ _ hs
            simp only [bind, Option.bind_some, Prod.map] at hy
            intro y hyy
            split at hy
            all_goals
              obtain ⟨e1, e2⟩ := Prod.mk.inj (Option.some.inj hy)
              rcases hyy with rfl | rfl
            · rw [e1, neg_mul_neg, hr]
            · rw [e2, hr]
            · rw [e1, hr]
            · rw [e2, neg_mul_neg, hr]
        rw [← e]
        simp only [SWCurve.onCurve, Bool.false_or, decide_eq_true_eq]
        apply hon
        split
        · exact .inr rfl
        · exact .inl rfl

end CurveFor
end

end GS.Tower

/-! ## Words that are drawn -/

namespace GS.Words

theorem limbs_val (a : List Nat) : limbsNat 64 a = val a := by
  induction a with
  | nil => rfl
  | cons x xs ih => rw [limbsNat, ih, val, B64]

theorem takeWords_words {σ : Type} (word : σ → Fin (2 ^ 64) × σ) (n : Nat) (s : σ) : IsWords n (takeWords word n s).1 := by
  induction n generalizing s with
  | zero => exact ⟨rfl, by simp [takeWords]⟩
  | succ n ih =>
    have := ih (word s).2
    refine ⟨by simp only [takeWords, List.length_cons, this.1], fun x hx => ?_⟩
    simp only [takeWords, List.mem_cons] at hx
    rcases hx with rfl | hx
    · exact (word s).1.isLt
    · exact this.2 x hx

theorem maskLast_words (mask : Nat) : ∀ {n : Nat} {l : List Nat}, IsWords n l → IsWords n (maskLast mask l)
  | _, [], h => h
  | _, [w], h => ⟨h.1, fun x hx => by
      simp only [maskLast, List.mem_singleton] at hx
      rw [hx]
      exact lt_of_le_of_lt Nat.and_le_left (h.2 w (by simp))⟩
  | 0, _ :: _ :: _, h => absurd h.1 (by simp)
  | n + 1, w :: v :: l, h => by
      have ih := maskLast_words mask (n := n) (l := v :: l) ⟨by have := h.1; simp only [List.length_cons] at this ⊢; omega, fun x hx => h.2 x (List.mem_cons_of_mem _ hx)⟩
      refine ⟨by simp only [maskLast, List.length_cons, ih.1], fun x hx => ?_⟩
      simp only [maskLast, List.mem_cons] at hx
      rcases hx with rfl | hx
      · exact h.2 _ (by simp)
      · exact ih.2 x hx

/-- The words that are drawn are an element, the one that the model over residues draws. -/
theorem rand_residue {σ : Type} {q : Nat} {p : List Nat} (hp : IsWords p.length p) (hq : val p = q) (bits : Nat) (word : σ → Fin (2 ^ 64) × σ) (n : Nat) : ∀ s : σ,
    (∀ x, rand p (64 * p.length - bits) word n s = some x → Element p x.1) ∧
    (rand p (64 * p.length - bits) word n s).map (Prod.map (residue q p) id) = (⟨q, 64, p.length, bits⟩ : FpConfig).rand word n s := by
  induction n with
  | zero => intro s; exact ⟨by simp [rand], rfl⟩
  | succ n ih =>
    intro s
    have hw := maskLast_words (if 64 * p.length - bits = 64 then 0 else (2 ^ 64 - 1) >>> (64 * p.length - bits)) (takeWords_words word p.length s)
    have hc := cmp_spec hw hp
    have hr : (⟨q, 64, p.length, bits⟩ : FpConfig).rand word (n + 1) s =
        if limbsNat 64 (maskLast (if 64 * p.length - bits = 64 then 0 else (2 ^ 64 - 1) >>> (64 * p.length - bits)) (takeWords word p.length s).1) < q then
          some ((⟨q, 64, p.length, bits⟩ : FpConfig).fromMont (limbsNat 64 (maskLast (if 64 * p.length - bits = 64 then 0 else (2 ^ 64 - 1) >>> (64 * p.length - bits))
            (takeWords word p.length s).1)), (takeWords word p.length s).2)
        else (⟨q, 64, p.length, bits⟩ : FpConfig).rand word n (takeWords word p.length s).2 := rfl
    rw [hr, limbs_val]
    simp only [rand]
    by_cases hlt : val (maskLast (if 64 * p.length - bits = 64 then 0 else (2 ^ 64 - 1) >>> (64 * p.length - bits)) (takeWords word p.length s).1) < q
    · rw [if_pos (by rw [hc, hq]; exact Nat.compare_eq_lt.mpr hlt), if_pos hlt]
      refine ⟨fun x hx => ?_, ?_⟩
      · obtain rfl := Option.some.inj hx
        exact ⟨hw.1, hw.2, by rw [hq]; exact hlt⟩
      · rfl
    · rw [if_neg (by rw [hc, hq]; exact fun e => hlt (Nat.compare_eq_lt.mp e)), if_neg hlt]
      exact ih _

end GS.Words
