import Mathlib.Algebra.BigOperators.Group.List.Basic
import Verif.Lemmas.Serialize
import Verif.Lemmas.Words
import Verif.Spec.Words

/-!
# Computing with words is computing with residues
-/

namespace GS.Words

theorem b64_pow (n : Nat) : B64 ^ n = 2 ^ (64 * n) := by unfold B64; rw [← pow_mul]

section
variable {p : List Nat}

theorem Modulus.nonempty (h : Modulus p) : ∃ n, p.length = n + 1 := by
  cases p with
  | nil => have := h.big; simp [val] at this
  | cons x xs => exact ⟨xs.length, rfl⟩

theorem Modulus.isWords (h : Modulus p) : IsWords p.length p := ⟨rfl, h.words⟩

theorem Modulus.odd' (h : Modulus p) : val p % 2 = 1 := Nat.odd_iff.1 h.odd

theorem Modulus.spare' (h : Modulus p) : 2 * val p ≤ B64 ^ p.length := by
  obtain ⟨n, hn⟩ := h.nonempty
  rw [b64_pow]
  have := h.spare
  have e : 64 * p.length = (64 * p.length - 1) + 1 := by omega
  rw [e, pow_succ]
  omega

theorem Modulus.unit (h : Modulus p) : (((B64 ^ p.length : Nat) : ZMod (val p))) * ((2 : ZMod (val p)) ^ (64 * p.length))⁻¹ = 1 := by
  rw [b64_pow]
  have hco : Nat.Coprime (2 ^ (64 * p.length)) (val p) := by
    apply Nat.Coprime.pow_left
    rw [Nat.coprime_two_left]
    exact h.odd
  have := ZMod.coe_mul_inv_eq_one (n := val p) (2 ^ (64 * p.length)) hco
  push_cast at this ⊢
  exact this

theorem Element.isWords {a : List Nat} (h : Element p a) : IsWords p.length a := ⟨h.1, h.2.1⟩

theorem element_of {a : List Nat} (h : IsWords p.length a) (h' : val a < val p) : Element p a := ⟨h.1, h.2, h'⟩

theorem elem_val (h : Modulus p) (a : List Nat) : (val a : ZMod (val p)) = elem p a * ((B64 ^ p.length : Nat) : ZMod (val p)) := by
  unfold elem
  rw [mul_assoc, mul_comm ((2 : ZMod (val p)) ^ _)⁻¹, h.unit, mul_one]

theorem elem_eq_iff (h : Modulus p) (a : List Nat) (x : ZMod (val p)) : elem p a = x ↔ (val a : ZMod (val p)) = x * ((B64 ^ p.length : Nat) : ZMod (val p)) := by
  constructor
  · rintro rfl; exact elem_val h a
  · intro e
    unfold elem
    rw [e, mul_assoc, h.unit, mul_one]

theorem elem_inj (h : Modulus p) {a b : List Nat} (ha : Element p a) (hb : Element p b) : elem p a = elem p b ↔ a = b := by
  refine ⟨fun e => ?_, fun e => e ▸ rfl⟩
  have : (val a : ZMod (val p)) = val b := by rw [elem_val h a, elem_val h b, e]
  rw [ZMod.natCast_eq_natCast_iff', Nat.mod_eq_of_lt ha.2.2, Nat.mod_eq_of_lt hb.2.2] at this
  exact val_inj ha.isWords hb.isWords this

theorem elem_surj (h : Modulus p) (x : ZMod (val p)) : ∃ a, Element p a ∧ elem p a = x := by
  have : NeZero (val p) := ⟨by have := h.big; omega⟩
  have hlt := ZMod.val_lt (x * ((B64 ^ p.length : Nat) : ZMod (val p)))
  have hv := val_ofNat (hlt.trans (val_lt h.isWords))
  refine ⟨ofNat p.length (x * ((B64 ^ p.length : Nat) : ZMod (val p))).val, element_of (isWords_ofNat _ _) (by rw [hv]; exact hlt), ?_⟩
  rw [elem_eq_iff h, hv, ZMod.natCast_zmod_val]

theorem elem_zero (p : List Nat) : elem p (List.replicate p.length 0) = 0 := by simp [elem, val_replicate_zero]

theorem element_zero (h : Modulus p) : Element p (List.replicate p.length 0) := element_of (isWords_replicate_zero _) (by rw [val_replicate_zero]; have := h.big; omega)

theorem elem_eq_zero (h : Modulus p) {a : List Nat} (ha : Element p a) : val a = 0 ↔ elem p a = 0 := by
  rw [elem_eq_iff h, zero_mul, ZMod.natCast_eq_zero_iff]
  exact ⟨fun e => by rw [e]; exact dvd_zero _, fun e => Nat.eq_zero_of_dvd_of_lt e ha.2.2⟩

theorem add_spec (h : Modulus p) {a b : List Nat} (ha : Element p a) (hb : Element p b) :
    Element p (add p a b) ∧ elem p (add p a b) = elem p a + elem p b ∧ (addCarry a b 0).2 = 0 := by
  obtain ⟨h1, h2, h3⟩ := addCarry_spec (c := 0) ha.isWords hb.isWords (by norm_num)
  have := h.spare'
  have l1 := ha.2.2
  have l2 := hb.2.2
  have hc : (addCarry a b 0).2 = 0 := by
    by_contra hne
    have e : (addCarry a b 0).2 = 1 := by omega
    rw [e] at h3; omega
  rw [hc] at h3
  obtain ⟨g1, g2⟩ := subtractModulus_spec h.isWords h1 (by omega)
  refine ⟨element_of g1 (by unfold add; rw [g2]; exact Nat.mod_lt _ (by omega)), ?_, hc⟩
  rw [elem_eq_iff h]
  unfold add
  rw [g2, ZMod.natCast_mod, add_mul, ← elem_val h, ← elem_val h, ← Nat.cast_add]
  congr 1

theorem double_spec (h : Modulus p) {a : List Nat} (ha : Element p a) : Element p (double p a) ∧ elem p (double p a) = elem p a + elem p a := by
  have := h.spare'
  have l1 := ha.2.2
  obtain ⟨h1, h2⟩ := mul2_spec (c := 0) ha.isWords (by norm_num) (by omega)
  obtain ⟨g1, g2⟩ := subtractModulus_spec h.isWords h1 (by omega)
  refine ⟨element_of g1 (by unfold double; rw [g2]; exact Nat.mod_lt _ (by omega)), ?_⟩
  rw [elem_eq_iff h]
  unfold double
  rw [g2, ZMod.natCast_mod, add_mul, ← elem_val h, ← Nat.cast_add]
  congr 1; omega

/-- A difference without borrow. -/
theorem subBorrow_le {n : Nat} {a b : List Nat} (ha : IsWords n a) (hb : IsWords n b) (hle : val b ≤ val a) :
    IsWords n (subBorrow a b 0).1 ∧ val (subBorrow a b 0).1 + val b = val a ∧ (subBorrow a b 0).2 = 0 := by
  obtain ⟨h1, h2, h3⟩ := subBorrow_spec (c := 0) ha hb (by norm_num)
  have h4 := val_lt h1
  have hc : (subBorrow a b 0).2 = 0 := by
    by_contra hne
    have e : (subBorrow a b 0).2 = 1 := by omega
    rw [e] at h3; omega
  rw [hc] at h3
  exact ⟨h1, by omega, hc⟩

theorem sub_spec (h : Modulus p) {a b : List Nat} (ha : Element p a) (hb : Element p b) : Element p (sub p a b) ∧ elem p (sub p a b) = elem p a - elem p b := by
  have l0 := h.spare'
  have l1 := ha.2.2
  have l2 := hb.2.2
  unfold sub
  rw [cmp_spec hb.isWords ha.isWords]
  by_cases hlt : val a < val b
  · rw [if_pos (Nat.compare_eq_gt.2 hlt)]
    obtain ⟨h1, h2, h3⟩ := addCarry_spec (c := 0) ha.isWords h.isWords (by norm_num)
    have hc : (addCarry a p 0).2 = 0 := by
      by_contra hne
      have e : (addCarry a p 0).2 = 1 := by omega
      rw [e] at h3; omega
    rw [hc] at h3
    obtain ⟨g1, g2, g3⟩ := subBorrow_le h1 hb.isWords (by omega)
    refine ⟨element_of g1 (by omega), ?_⟩
    rw [elem_eq_iff h, sub_mul, ← elem_val h, ← elem_val h, eq_sub_iff_add_eq, ← Nat.cast_add, g2]
    have : val (addCarry a p 0).1 = val a + val p := by omega
    rw [this, Nat.cast_add, ZMod.natCast_self, add_zero]
  · rw [if_neg (by rw [Nat.compare_eq_gt]; exact hlt)]
    obtain ⟨g1, g2, g3⟩ := subBorrow_le ha.isWords hb.isWords (by omega)
    refine ⟨element_of g1 (by omega), ?_⟩
    rw [elem_eq_iff h, sub_mul, ← elem_val h, ← elem_val h, eq_sub_iff_add_eq, ← Nat.cast_add, g2]

theorem neg_spec (h : Modulus p) {a : List Nat} (ha : Element p a) : Element p (neg p a) ∧ elem p (neg p a) = -elem p a := by
  have l1 := ha.2.2
  unfold neg
  rw [isZero_spec]
  by_cases h0 : val a = 0
  · rw [if_pos (by simpa using h0)]
    refine ⟨ha, ?_⟩
    rw [(elem_eq_zero h ha).1 h0, neg_zero]
  · rw [if_neg (by simpa using h0)]
    obtain ⟨g1, g2, g3⟩ := subBorrow_le h.isWords ha.isWords (by omega)
    refine ⟨element_of g1 (by omega), ?_⟩
    rw [elem_eq_iff h, neg_mul, ← elem_val h, eq_neg_iff_add_eq_zero, ← Nat.cast_add, g2, ZMod.natCast_self]

theorem elem_of_mont (h : Modulus p) {out : List Nat} {v : Nat} {x y : ZMod (val p)} (e : B64 ^ p.length * val out ≡ v [MOD val p])
    (hv : (v : ZMod (val p)) = (x * ((B64 ^ p.length : Nat) : ZMod (val p))) * (y * ((B64 ^ p.length : Nat) : ZMod (val p)))) : elem p out = x * y := by
  rw [elem_eq_iff h]
  have h1 : ((B64 ^ p.length * val out : Nat) : ZMod (val p)) = v := (ZMod.natCast_eq_natCast_iff _ _ _).2 e
  rw [hv, Nat.cast_mul] at h1
  have hu := h.unit
  linear_combination ((2 : ZMod (val p)) ^ (64 * p.length))⁻¹ * h1 + (x * y * ((B64 ^ p.length : Nat) : ZMod (val p)) - val out) * hu

theorem mul_elem (h : Modulus p) {a b : List Nat} (ha : Element p a) (hb : Element p b) :
    ∃ out, mul p a b = some out ∧ Element p out ∧ elem p out = elem p a * elem p b := by
  obtain ⟨n, hn⟩ := h.nonempty
  have hp := h.isWords
  have ha' := ha.isWords
  have hb' := hb.isWords
  have hs := h.spare'
  rw [hn] at hp ha' hb' hs
  obtain ⟨out, h1, h2, h3, h4⟩ := mul_spec hp h.odd' hs ha' ha.2.2 hb' hb.2.2
  rw [← hn] at h2 h4
  exact ⟨out, h1, element_of h2 h3, elem_of_mont h h4 (by rw [Nat.cast_mul, ← elem_val h, ← elem_val h])⟩

theorem square_elem (h : Modulus p) {a : List Nat} (ha : Element p a) : ∃ out, square p a = some out ∧ Element p out ∧ elem p out = elem p a * elem p a := by
  obtain ⟨n, hn⟩ := h.nonempty
  have hp := h.isWords
  have ha' := ha.isWords
  have hs := h.spare'
  rw [hn] at hp ha' hs
  obtain ⟨out, h1, h2, h3, h4⟩ := square_spec hp h.odd' hs ha' ha.2.2
  rw [← hn] at h2 h4
  exact ⟨out, h1, element_of h2 h3, elem_of_mont h h4 (by rw [Nat.cast_mul, ← elem_val h])⟩

theorem intoBigint_elem (h : Modulus p) {a : List Nat} (ha : Element p a) : IsWords p.length (intoBigint p a) ∧ val (intoBigint p a) = (elem p a).val := by
  obtain ⟨n, hn⟩ := h.nonempty
  have hp := h.isWords
  have ha' := ha.isWords
  rw [hn] at hp ha'
  obtain ⟨h1, h2, h3⟩ := intoBigint_spec hp h.odd' ha' ha.2.2
  rw [← hn] at h1 h3
  refine ⟨h1, ?_⟩
  have e : (val (intoBigint p a) : ZMod (val p)) = elem p a := by
    have h4 : ((B64 ^ p.length * val (intoBigint p a) : Nat) : ZMod (val p)) = val a := (ZMod.natCast_eq_natCast_iff _ _ _).2 h3
    rw [elem_val h a, Nat.cast_mul] at h4
    linear_combination ((2 : ZMod (val p)) ^ (64 * p.length))⁻¹ * h4 + (elem p a - val (intoBigint p a)) * h.unit
  rw [← e, ZMod.val_natCast, Nat.mod_eq_of_lt h2]

theorem R2_spec (h : Modulus p) : Element p (R2 p) ∧ (val (R2 p) : ZMod (val p)) = ((B64 ^ p.length : Nat) : ZMod (val p)) * ((B64 ^ p.length : Nat) : ZMod (val p)) := by
  have hlt : B64 ^ (2 * p.length) % val p < val p := Nat.mod_lt _ (by have := h.big; omega)
  have hv := val_ofNat (hlt.trans (val_lt h.isWords))
  refine ⟨element_of (isWords_ofNat _ _) (by unfold R2; rw [hv]; exact hlt), ?_⟩
  unfold R2
  rw [hv, ZMod.natCast_mod, two_mul, pow_add, Nat.cast_mul]

theorem fromBigint_elem (h : Modulus p) {r : List Nat} (hr : IsWords p.length r) :
    (val r < val p → ∃ out, fromBigint p r = some (some out) ∧ Element p out ∧ elem p out = val r) ∧ (val p ≤ val r → fromBigint p r = some none) := by
  have hbig := h.big
  unfold fromBigint
  rw [isZero_spec, cmp_spec hr h.isWords]
  constructor
  · intro hlt
    by_cases h0 : val r = 0
    · rw [if_pos (by simpa using h0)]
      exact ⟨r, rfl, element_of hr hlt, by rw [elem_eq_iff h, h0]; simp⟩
    · rw [if_neg (by simpa using h0), if_pos (Nat.compare_eq_lt.2 hlt)]
      obtain ⟨out, h1, h2, h3⟩ := mul_elem h (element_of hr hlt) (R2_spec h).1
      refine ⟨out, by rw [h1]; rfl, h2, ?_⟩
      have e : elem p (R2 p) = ((B64 ^ p.length : Nat) : ZMod (val p)) := by rw [elem_eq_iff h]; exact (R2_spec h).2
      rw [h3, e, ← elem_val h]
  · intro hle
    rw [if_neg (by simp only [decide_eq_true_eq]; omega), if_neg (by rw [Nat.compare_eq_lt]; omega)]

/-! ## The inverse -/

theorem halve_spec (h : Modulus p) {A X : ZMod (val p)} {n : Nat} {u b : List Nat} (hu : IsWords p.length u) (hb : Element p b) (h0 : 0 < val u) (hn : val u ≤ n)
    (hinv : (val b : ZMod (val p)) * A = val u * X) :
    IsWords p.length (halve p n u b).1 ∧ Element p (halve p n u b).2 ∧ val (halve p n u b).1 % 2 = 1 ∧ val (halve p n u b).1 ∣ val u ∧
      (val (halve p n u b).2 : ZMod (val p)) * A = val (halve p n u b).1 * X := by
  induction n generalizing u b with
  | zero => omega
  | succ n ih =>
    unfold halve
    rw [isEven_spec hu]
    by_cases he : val u % 2 = 0
    · rw [if_pos (by simpa using he)]
      obtain ⟨u1, u2, -⟩ := div2_spec hu
      -- the number that is halved
      obtain ⟨b', hb', hw, hev, hlt, hcast⟩ : ∃ b', (if isEven b then b else (addCarry b p 0).1) = b' ∧ IsWords p.length b' ∧ val b' % 2 = 0 ∧ val b' < 2 * val p ∧
          (val b' : ZMod (val p)) = val b := by
        rw [isEven_spec hb.isWords]
        have l1 := hb.2.2
        by_cases hbe : val b % 2 = 0
        · rw [if_pos (by simpa using hbe)]
          exact ⟨b, rfl, hb.isWords, hbe, by omega, rfl⟩
        · rw [if_neg (by simpa using hbe)]
          obtain ⟨a1, a2, a3⟩ := addCarry_spec (c := 0) hb.isWords h.isWords (by norm_num)
          have l0 := h.spare'
          have hc : (addCarry b p 0).2 = 0 := by
            by_contra hne
            have e : (addCarry b p 0).2 = 1 := by omega
            rw [e] at a3; omega
          rw [hc] at a3
          have hodd := h.odd'
          have e : val (addCarry b p 0).1 = val b + val p := by omega
          exact ⟨_, rfl, a1, by omega, by omega, by rw [e, Nat.cast_add, ZMod.natCast_self, add_zero]⟩
      rw [hb']
      obtain ⟨b1, b2, -⟩ := div2_spec hw
      have htwo : IsUnit ((2 : Nat) : ZMod (val p)) := by
        rw [ZMod.isUnit_iff_coprime, Nat.coprime_two_left]; exact h.odd
      have hinv' : (val (div2 b').1 : ZMod (val p)) * A = val (div2 u).1 * X := by
        apply htwo.mul_left_cancel
        rw [b2, u2, ← mul_assoc, ← mul_assoc, ← Nat.cast_mul, ← Nat.cast_mul, Nat.mul_div_cancel' (Nat.dvd_of_mod_eq_zero hev), Nat.mul_div_cancel' (Nat.dvd_of_mod_eq_zero he), hcast, hinv]
      obtain ⟨g1, g2, g3, g4, g5⟩ := ih u1 (element_of b1 (by omega)) (by omega) (by omega) hinv'
      refine ⟨g1, g2, g3, g4.trans ?_, g5⟩
      rw [u2]; exact Nat.div_dvd_of_dvd (Nat.dvd_of_mod_eq_zero he)
    · rw [if_neg (by simpa using he)]
      exact ⟨hu, hb, by simp only; omega, dvd_rfl, hinv⟩

theorem cast_sub_elem (h : Modulus p) {b c : List Nat} (hb : Element p b) (hc : Element p c) : (val (sub p b c) : ZMod (val p)) = val b - val c := by
  rw [elem_val h, elem_val h b, elem_val h c, (sub_spec h hb hc).2, sub_mul]

theorem val_one_words (h : Modulus p) : val (ofNat p.length 1) = 1 := val_ofNat (h.big.trans (val_lt h.isWords))

theorem eq_one_iff (h : Modulus p) {u : List Nat} (hu : IsWords p.length u) : u = ofNat p.length 1 ↔ val u = 1 :=
  ⟨fun e => by rw [e, val_one_words h], fun e => val_inj hu (isWords_ofNat _ _) (by rw [e, val_one_words h])⟩

theorem inverseLoop_spec (h : Modulus p) {A X : ZMod (val p)} {n : Nat} {u v b c : List Nat} (hu : IsWords p.length u) (hv : IsWords p.length v) (hb : Element p b) (hc : Element p c)
    (hco : Nat.Coprime (val u) (val v)) (hn : val u + val v ≤ n) (hbu : (val b : ZMod (val p)) * A = val u * X) (hcv : (val c : ZMod (val p)) * A = val v * X) :
    ∃ out, inverseLoop p (ofNat p.length 1) n u v b c = some out ∧ Element p out ∧ (val out : ZMod (val p)) * A = X := by
  induction n generalizing u v b c with
  | zero =>
    have h1 : val u = 0 := by omega
    have h2 : val v = 0 := by omega
    rw [h1, h2] at hco; simp at hco
  | succ n ih =>
    unfold inverseLoop
    simp only [ne_eq, eq_one_iff h hu, eq_one_iff h hv]
    by_cases hcond : ¬val u = 1 ∧ ¬val v = 1
    · rw [if_pos hcond]
      have hu0 : 0 < val u := by
        rcases Nat.eq_zero_or_pos (val u) with h0 | h0
        · rw [h0, Nat.coprime_zero_left] at hco; exact absurd hco hcond.2
        · exact h0
      have hv0 : 0 < val v := by
        rcases Nat.eq_zero_or_pos (val v) with h0 | h0
        · rw [h0, Nat.coprime_zero_right] at hco; exact absurd hco hcond.1
        · exact h0
      obtain ⟨u1, u2, u3, u4, u5⟩ := halve_spec h hu hb hu0 le_rfl hbu
      obtain ⟨v1, v2, v3, v4, v5⟩ := halve_spec h hv hc hv0 le_rfl hcv
      generalize halve p (val u) u b = ub at *
      generalize halve p (val v) v c = vc at *
      obtain ⟨u', b'⟩ := ub
      obtain ⟨v', c'⟩ := vc
      simp only at *
      have hco' : Nat.Coprime (val u') (val v') := Nat.Coprime.coprime_dvd_left u4 (Nat.Coprime.coprime_dvd_right v4 hco)
      have lu := Nat.le_of_dvd hu0 u4
      have lv := Nat.le_of_dvd hv0 v4
      rw [cmp_spec v1 u1]
      by_cases hlt : val v' < val u'
      · rw [if_pos (Nat.compare_eq_lt.2 hlt)]
        obtain ⟨g1, g2, g3⟩ := subBorrow_le u1 v1 hlt.le
        have e : val (subBorrow u' v' 0).1 = val u' - val v' := by omega
        refine ih g1 v1 (sub_spec h u2 v2).1 v2 ?_ (by omega) ?_ v5
        · rw [e]; exact (Nat.coprime_sub_self_left hlt.le).2 hco'
        · rw [cast_sub_elem h u2 v2, e, Nat.cast_sub hlt.le, sub_mul, sub_mul, u5, v5]
      · rw [if_neg (by rw [Nat.compare_eq_lt]; exact hlt)]
        have hle : val u' ≤ val v' := by omega
        obtain ⟨g1, g2, g3⟩ := subBorrow_le v1 u1 hle
        have e : val (subBorrow v' u' 0).1 = val v' - val u' := by omega
        refine ih u1 g1 u2 (sub_spec h v2 u2).1 ?_ (by omega) u5 ?_
        · rw [e]; exact (Nat.coprime_sub_self_right hle).2 hco'
        · rw [cast_sub_elem h v2 u2, e, Nat.cast_sub hle, sub_mul, sub_mul, u5, v5]
    · rw [if_neg hcond]
      by_cases h1 : val u = 1
      · rw [if_pos h1]
        exact ⟨b, rfl, hb, by rw [hbu, h1, Nat.cast_one, one_mul]⟩
      · rw [if_neg h1]
        have h2 : val v = 1 := by tauto
        exact ⟨c, rfl, hc, by rw [hcv, h2, Nat.cast_one, one_mul]⟩

theorem inverse_elem (h : Modulus p) [hprime : Fact (val p).Prime] {a : List Nat} (ha : Element p a) :
    (elem p a = 0 → inverse p a = some none) ∧ (elem p a ≠ 0 → ∃ out, inverse p a = some (some out) ∧ Element p out ∧ elem p out = (elem p a)⁻¹) := by
  unfold inverse
  rw [isZero_spec]
  constructor
  · intro e
    rw [if_pos (by simpa using (elem_eq_zero h ha).2 e)]
  · intro e
    have h0 : val a ≠ 0 := fun e' => e ((elem_eq_zero h ha).1 e')
    rw [if_neg (by simpa using h0)]
    have hco : Nat.Coprime (val a) (val p) :=
      (Nat.coprime_comm.1 ((Nat.Prime.coprime_iff_not_dvd hprime.out).2 fun hd => absurd (Nat.le_of_dvd (by omega) hd) (by have := ha.2.2; omega)))
    obtain ⟨out, h1, h2, h3⟩ := inverseLoop_spec h (A := val a) (X := val (R2 p)) (n := val a + val p + 1) ha.isWords h.isWords (R2_spec h).1 (element_zero h) hco (by omega)
      (mul_comm _ _) (by rw [val_replicate_zero, ZMod.natCast_self, Nat.cast_zero, zero_mul, zero_mul])
    refine ⟨out, by rw [h1]; rfl, h2, ?_⟩
    rw [elem_val h out, elem_val h a, (R2_spec h).2] at h3
    apply eq_inv_of_mul_eq_one_left
    have hu := h.unit
    set I := ((2 : ZMod (val p)) ^ (64 * p.length))⁻¹
    set W := ((B64 ^ p.length : Nat) : ZMod (val p))
    linear_combination I * I * h3 + (1 + W * I) * (1 - elem p out * elem p a) * hu

/-! ## Sums of products -/

/-- What a word of the first factors adds. -/
def sopVal (j : Nat) (l : List (List Nat × List Nat)) : Nat := (l.map fun t => t.1.getD j 0 * val t.2).sum

theorem getD_lt {a : List Nat} (ha : ∀ x ∈ a, x < B64) (j : Nat) : a.getD j 0 < B64 := by
  rw [List.getD_eq_getElem?_getD]
  cases h : a[j]? with
  | none => exact b64_pos
  | some x => exact ha x (List.mem_of_getElem? h)

theorem sopPairs_spec {n j : Nat} {l : List (List Nat × List Nat)} (hl : ∀ t ∈ l, IsWords n t.1 ∧ IsWords n t.2) {r : List Nat} {ca : Nat} (hr : IsWords n r)
    (hlt : val r + sopVal j l + B64 ^ n * ca < B64 ^ (n + 1)) :
    ∃ r' ca', sopPairs j l r ca 0 = (r', ca', 0) ∧ IsWords n r' ∧ val r' + B64 ^ n * ca' = val r + sopVal j l + B64 ^ n * ca := by
  induction l generalizing r ca with
  | nil => exact ⟨r, ca, rfl, hr, by simp [sopVal]⟩
  | cons t l ih =>
    obtain ⟨a, b⟩ := t
    have hab := hl (a, b) (by simp)
    have hj := getD_lt hab.1.2 j
    obtain ⟨h1, h2, h3, h4⟩ := macRow_spec hj [] hr hab.2 b64_pos
    rw [List.append_nil] at h1 h2 h3 h4
    set t := macRow (a.getD j 0) r b 0 with ht
    have hV : val r + sopVal j ((a, b) :: l) + B64 ^ n * ca = val t.1 + sopVal j l + B64 ^ n * (ca + t.2.2) := by
      simp only [sopVal, List.map_cons, List.sum_cons]
      linear_combination -h4
    rw [hV] at hlt ⊢
    have hca : ca + t.2.2 < B64 := by
      rw [pow_succ] at hlt
      exact Nat.lt_of_mul_lt_mul_left (lt_of_le_of_lt (Nat.le_add_left _ _) hlt)
    obtain ⟨r', ca', g1, g2, g3⟩ := ih (fun t ht => hl t (by simp [ht])) h2 hlt
    refine ⟨r', ca', ?_, g2, g3⟩
    have e : adc ca 0 t.2.2 = (ca + t.2.2, 0) := by simp only [adc, Nat.add_zero, Nat.mod_eq_of_lt hca, Nat.div_eq_of_lt hca]
    simp only [sopPairs]
    rw [← ht, e]
    exact g1

theorem sopStep_spec {n j : Nat} {l : List (List Nat × List Nat)} {r : List Nat} (hp : IsWords (n + 1) p) (hodd : val p % 2 = 1) (hl : ∀ t ∈ l, IsWords (n + 1) t.1 ∧ IsWords (n + 1) t.2)
    (hr : IsWords (n + 1) r) (hlt : ∀ k < B64, val r + sopVal j l + k * val p < B64 ^ (n + 2)) :
    IsWords (n + 1) (sopStep p l r j) ∧ ∃ k < B64, B64 * val (sopStep p l r j) = val r + sopVal j l + k * val p := by
  obtain ⟨p0, ps, rfl, hp0, hps⟩ := isWords_succ hp
  have hodd0 : p0 % 2 = 1 := by
    simp only [val, b64_eq, Nat.mul_assoc, Nat.add_mul_mod_self_left] at hodd; exact hodd
  obtain ⟨r', ca, g1, g2, g3⟩ := sopPairs_spec (j := j) (ca := 0) hl hr (by have : _ < B64 ^ (n + 1 + 1) := hlt 0 b64_pos; omega)
  obtain ⟨r0, rs, rfl, hr0, hrs⟩ := isWords_succ g2
  have hk : r0 * inv p0 % B64 < B64 := mod_lt_b64 _
  obtain ⟨t1, t2, t3⟩ := mac_lt hr0 hk hp0 b64_pos
  have hclear : (mac r0 (r0 * inv p0 % B64) p0 0).1 = 0 := by simp only [mac, Nat.add_zero]; exact clear_low hodd0
  set k := r0 * inv p0 % B64 with hkdef
  rw [hclear] at t3
  obtain ⟨h1, h2, h3, h4⟩ := macRow_spec hk [] hrs hps t2
  rw [List.append_nil] at h1 h2 h3 h4
  set t := macRow k rs ps (mac r0 k p0 0).2 with ht
  have hV : val r + sopVal j l + k * val (p0 :: ps) = B64 * (val t.1 + B64 ^ n * (ca + t.2.2)) := by
    simp only [val] at g3 ⊢
    linear_combination -g3 - t3 - B64 * h4
  have hca : ca + t.2.2 < B64 := by
    have := hlt k hk
    rw [hV, pow_succ, Nat.mul_comm (B64 ^ (n + 1)), pow_succ] at this
    have := Nat.lt_of_mul_lt_mul_left this
    exact Nat.lt_of_mul_lt_mul_left (lt_of_le_of_lt (Nat.le_add_left _ _) this)
  have e : sopStep (p0 :: ps) l r j = t.1 ++ [ca + t.2.2] := by
    simp only [sopStep, g1]
    rw [← hkdef, ← ht]
    simp only [adc, Nat.add_zero, Nat.mod_eq_of_lt hca]
  rw [e]
  refine ⟨isWords_append h2 (isWords_cons hca isWords_nil), k, hk, ?_⟩
  rw [hV]
  simp only [val, val_append, h2.1]
  ring

/-- The sum of the products with the lowest words of the first factors. -/
def sopLow (j : Nat) (l : List (List Nat × List Nat)) : Nat := (l.map fun t => val (t.1.take j) * val t.2).sum

theorem val_take_succ (a : List Nat) (j : Nat) : val (a.take (j + 1)) = val (a.take j) + B64 ^ j * a.getD j 0 := by
  induction a generalizing j with
  | nil => simp [val]
  | cons x xs ih =>
    cases j with
    | zero => simp [val]
    | succ j => simp only [List.take_succ_cons, val, ih, List.getD_cons_succ, pow_succ]; ring

theorem sopLow_succ (j : Nat) (l : List (List Nat × List Nat)) : sopLow (j + 1) l = sopLow j l + B64 ^ j * sopVal j l := by
  induction l with
  | nil => simp [sopLow, sopVal]
  | cons t l ih =>
    simp only [sopLow, sopVal, List.map_cons, List.sum_cons, val_take_succ] at ih ⊢
    rw [ih]; ring

theorem sopVal_le {j w : Nat} {l : List (List Nat × List Nat)} (hw : ∀ t ∈ l, t.1.getD j 0 ≤ w) {P : Nat} (hP : ∀ t ∈ l, val t.2 ≤ P) : sopVal j l ≤ l.length * (w * P) := by
  induction l with
  | nil => simp [sopVal]
  | cons t l ih =>
    have := ih (fun t ht => hw t (by simp [ht])) (fun t ht => hP t (by simp [ht]))
    simp only [sopVal, List.map_cons, List.sum_cons, List.length_cons] at this ⊢
    have h2 : t.1.getD j 0 * val t.2 ≤ w * P := Nat.mul_le_mul (hw t (by simp)) (hP t (by simp))
    rw [Nat.succ_mul]
    omega

theorem sopSteps_spec {n : Nat} {l : List (List Nat × List Nat)} (hp : IsWords (n + 1) p) (hodd : val p % 2 = 1) (hl : ∀ t ∈ l, IsWords (n + 1) t.1 ∧ IsWords (n + 1) t.2 ∧ val t.2 ≤ val p)
    (hm : (l.length + 1) * val p ≤ B64 ^ (n + 1)) (j : Nat) :
    IsWords (n + 1) ((List.range j).foldl (sopStep p l) (List.replicate (n + 1) 0)) ∧ val ((List.range j).foldl (sopStep p l) (List.replicate (n + 1) 0)) < (l.length + 1) * val p ∧
      ∃ K < B64 ^ j, B64 ^ j * val ((List.range j).foldl (sopStep p l) (List.replicate (n + 1) 0)) = sopLow j l + K * val p := by
  induction j with
  | zero =>
    refine ⟨isWords_replicate_zero _, ?_, 0, by simp, ?_⟩
    · simp only [List.range_zero, List.foldl_nil, val_replicate_zero]
      have : 0 < val p := by omega
      positivity
    · simp [val_replicate_zero, sopLow, val]
  | succ j ih =>
    rw [List.range_succ, List.foldl_append, List.foldl_cons, List.foldl_nil]
    set r := (List.range j).foldl (sopStep p l) (List.replicate (n + 1) 0) with hr
    obtain ⟨h1, h2, K, h3, h4⟩ := ih
    obtain ⟨w, hw⟩ : ∃ w, B64 = w + 1 := ⟨B64 - 1, by have := b64_pos; omega⟩
    have hs : sopVal j l ≤ l.length * (w * val p) :=
      sopVal_le (fun t ht => by have := getD_lt (hl t ht).1.2 j; omega) (fun t ht => (hl t ht).2.2)
    have hbound : ∀ k < B64, val r + sopVal j l + k * val p < B64 * ((l.length + 1) * val p) := by
      intro k hk
      have hk2 : k * val p ≤ w * val p := Nat.mul_le_mul_right _ (by omega)
      have e : B64 * ((l.length + 1) * val p) = (l.length + 1) * val p + l.length * (w * val p) + w * val p := by rw [hw]; ring
      omega
    obtain ⟨g1, k, g2, g3⟩ := sopStep_spec hp hodd (fun t ht => ⟨(hl t ht).1, (hl t ht).2.1⟩) h1 (fun k hk => (hbound k hk).trans_le (by
      rw [pow_succ, Nat.mul_comm (B64 ^ (n + 1))]
      exact Nat.mul_le_mul_left _ hm))
    refine ⟨g1, Nat.lt_of_mul_lt_mul_left (a := B64) (by rw [g3]; exact hbound k g2), K + B64 ^ j * k, ?_, ?_⟩
    · rw [pow_succ]
      have := Nat.mul_le_mul_left (B64 ^ j) (Nat.succ_le_of_lt g2)
      rw [Nat.mul_succ] at this
      omega
    · rw [sopLow_succ, pow_succ]
      linear_combination (B64 ^ j) * g3 + h4

theorem sopLow_full {n : Nat} {l : List (List Nat × List Nat)} (hl : ∀ t ∈ l, t.1.length = n) : sopLow n l = (l.map fun t => val t.1 * val t.2).sum := by
  unfold sopLow
  congr 1
  apply List.map_congr_left
  intro t ht
  rw [← hl t ht, List.take_length]

theorem sop_le {l : List (List Nat × List Nat)} (hl : ∀ t ∈ l, Element p t.1 ∧ Element p t.2) : (l.map fun t => val t.1 * val t.2).sum ≤ l.length * (val p * val p) := by
  induction l with
  | nil => simp
  | cons t l ih =>
    have h1 := ih (fun t ht => hl t (by simp [ht]))
    have h2 := hl t (by simp)
    have h3 : val t.1 * val t.2 ≤ val p * val p := Nat.mul_le_mul h2.1.2.2.le h2.2.2.2.le
    simp only [List.map_cons, List.sum_cons, List.length_cons, Nat.succ_mul]
    omega

theorem sop_cast (h : Modulus p) (l : List (List Nat × List Nat)) : (((l.map fun t => val t.1 * val t.2).sum : Nat) : ZMod (val p)) =
    (l.map fun t => elem p t.1 * elem p t.2).sum * (((B64 ^ p.length : Nat) : ZMod (val p)) * ((B64 ^ p.length : Nat) : ZMod (val p))) := by
  induction l with
  | nil => simp
  | cons t l ih =>
    simp only [List.map_cons, List.sum_cons]
    rw [Nat.cast_add, ih, Nat.cast_mul, elem_val h t.1, elem_val h t.2]
    ring

theorem sopChunk_elem (h : Modulus p) {l : List (List Nat × List Nat)} (hl : ∀ t ∈ l, Element p t.1 ∧ Element p t.2) (hm : (l.length + 1) * val p ≤ B64 ^ p.length) :
    Element p (sopChunk p l) ∧ elem p (sopChunk p l) = (l.map fun t => elem p t.1 * elem p t.2).sum := by
  obtain ⟨n, hn⟩ := h.nonempty
  have hp := h.isWords
  rw [hn] at hp
  have hbig := h.big
  obtain ⟨h1, -, K, h3, h4⟩ := sopSteps_spec hp h.odd'
    (fun t ht => ⟨hn ▸ (hl t ht).1.isWords, hn ▸ (hl t ht).2.isWords, (hl t ht).2.2.2.le⟩) (by rw [← hn]; exact hm) (n + 1)
  unfold sopChunk
  rw [← hn] at h1 h3 h4
  rw [sopLow_full (fun t ht => (hl t ht).1.1)] at h4
  set r := (List.range p.length).foldl (sopStep p l) (List.replicate p.length 0)
  have hlt := mont_bound (m := l.length) h4 h3 (sop_le hl) (by rw [Nat.succ_mul] at hm; omega) (by omega)
  obtain ⟨g1, g2⟩ := subtractModulus_spec h.isWords h1 hlt
  refine ⟨element_of g1 (by rw [g2]; exact Nat.mod_lt _ (by omega)), ?_⟩
  have e : B64 ^ p.length * val (subtractModulus p r) ≡ (l.map fun t => val t.1 * val t.2).sum [MOD val p] := by
    rw [g2]
    calc B64 ^ p.length * (val r % val p) ≡ B64 ^ p.length * val r [MOD val p] := Nat.ModEq.mul_left _ (Nat.mod_modEq _ _)
      _ = _ := h4
      _ ≡ _ [MOD val p] := by unfold Nat.ModEq; rw [Nat.add_mul_mod_self_right]
  have := elem_of_mont h (x := (l.map fun t => elem p t.1 * elem p t.2).sum) (y := 1) e (by rw [sop_cast h]; ring)
  rw [this, mul_one]

theorem sopSum_elem (h : Modulus p) {m : Nat} (hm0 : 0 < m) (hm : (m + 1) * val p ≤ B64 ^ p.length) {n : Nat} {l : List (List Nat × List Nat)} {acc : List Nat}
    (hl : ∀ t ∈ l, Element p t.1 ∧ Element p t.2) (hacc : Element p acc) (hn : l.length ≤ n) :
    Element p (sopSum p m n l acc) ∧ elem p (sopSum p m n l acc) = elem p acc + (l.map fun t => elem p t.1 * elem p t.2).sum := by
  induction n generalizing l acc with
  | zero =>
    have : l = [] := List.length_eq_zero_iff.1 (by omega)
    subst this
    exact ⟨hacc, by simp [sopSum]⟩
  | succ n ih =>
    unfold sopSum
    by_cases he : l.isEmpty
    · rw [if_pos he]
      have : l = [] := List.isEmpty_iff.1 he
      subst this
      exact ⟨hacc, by simp⟩
    · rw [if_neg he]
      have hpos : 0 < l.length := List.length_pos_iff.2 fun e => he (by simp [e])
      have hle : ((l.take m).length + 1) * val p ≤ B64 ^ p.length := (Nat.mul_le_mul_right _ (by rw [List.length_take]; omega)).trans hm
      obtain ⟨c1, c2⟩ := sopChunk_elem h (fun t ht => hl t (List.mem_of_mem_take ht)) hle
      obtain ⟨a1, a2, -⟩ := add_spec h hacc c1
      obtain ⟨g1, g2⟩ := ih (l := l.drop m) (fun t ht => hl t (List.mem_of_mem_drop ht)) a1 (by rw [List.length_drop]; omega)
      refine ⟨g1, ?_⟩
      rw [g2, a2, c2, add_assoc, ← List.sum_append, ← List.map_append, List.take_append_drop]

theorem two_mul_le_two_pow {s : Nat} (h : 1 ≤ s) : 2 * s ≤ 2 ^ s := by
  induction s with
  | zero => omega
  | succ s ih =>
    rcases Nat.eq_zero_or_pos s with h0 | h0
    · subst h0; norm_num
    · have := ih h0
      rw [pow_succ]; omega

theorem sumOfProducts_elem (h : Modulus p) {l : List (List Nat × List Nat)} (hl : ∀ t ∈ l, Element p t.1 ∧ Element p t.2) :
    ∃ out, sumOfProducts p l = some out ∧ Element p out ∧ elem p out = (l.map fun t => elem p t.1 * elem p t.2).sum := by
  unfold sumOfProducts
  simp only
  split
  · have key : ∀ acc, Element p acc → ∃ out, l.foldlM (fun acc t => (mul p t.1 t.2).map (add p acc)) acc = some out ∧ Element p out ∧
        elem p out = elem p acc + (l.map fun t => elem p t.1 * elem p t.2).sum := by
      induction l with
      | nil => exact fun acc hacc => ⟨acc, rfl, hacc, by simp⟩
      | cons t l ih =>
        intro acc hacc
        have ht := hl t (by simp)
        obtain ⟨o, h1, h2, h3⟩ := mul_elem h ht.1 ht.2
        obtain ⟨a1, a2, -⟩ := add_spec h hacc h2
        obtain ⟨out, g1, g2, g3⟩ := ih (fun t ht => hl t (by simp [ht])) _ a1
        refine ⟨out, ?_, g2, ?_⟩
        · rw [List.foldlM_cons, h1]; exact g1
        · rw [g3, a2, h3, List.map_cons, List.sum_cons, add_assoc]
    obtain ⟨out, h1, h2, h3⟩ := key _ (element_zero h)
    exact ⟨out, h1, h2, by rw [h3, elem_zero, zero_add]⟩
  · rename_i hs
    set s := 64 * p.length - Nat.size (val p) with hsdef
    have hm : (2 * s - 1 + 1) * val p ≤ B64 ^ p.length := by
      rw [b64_pow, show 64 * p.length = s + Nat.size (val p) by omega, pow_add]
      exact Nat.mul_le_mul (by have := two_mul_le_two_pow (s := s) (by omega); omega) (Nat.lt_size_self _).le
    obtain ⟨g1, g2⟩ := sopSum_elem h (by omega) hm hl (element_zero h) le_rfl
    exact ⟨_, rfl, g1, by rw [g2, elem_zero, zero_add]⟩

/-! ## Bytes -/

theorem toBytes_eq {n : Nat} {a : List Nat} (ha : IsWords n a) : toBytes a = leBytes (8 * n) (val a) := by
  have e256 : B64 = 256 ^ 8 := by unfold B64; norm_num
  have split : ∀ k m x : Nat, leBytes (k + m) x = leBytes k (x % 256 ^ k) ++ leBytes m (x / 256 ^ k) := by
    intro k
    induction k with
    | zero => intro m x; simp [leBytes]
    | succ k ih =>
      intro m x
      rw [show k + 1 + m = (k + m) + 1 by ring]
      simp only [leBytes, List.cons_append]
      rw [ih]
      congr 2
      · rw [pow_succ, Nat.mul_comm, Nat.mod_mul_right_mod]
      · rw [pow_succ, Nat.mul_comm, Nat.mod_mul_right_div_self]
      · rw [pow_succ, Nat.mul_comm, Nat.div_div_eq_div_mul]
  induction n generalizing a with
  | zero => rw [isWords_zero ha]; rfl
  | succ n ih =>
    obtain ⟨x, xs, rfl, hx, hxs⟩ := isWords_succ ha
    have := ih hxs
    simp only [toBytes, List.flatMap_cons] at this ⊢
    rw [this, show 8 * (n + 1) = 8 + 8 * n by ring, split 8, val, e256, Nat.add_mul_mod_self_left, Nat.add_mul_div_left _ _ (by norm_num), Nat.mod_eq_of_lt (e256 ▸ hx),
      Nat.div_eq_of_lt (e256 ▸ hx), Nat.zero_add]

theorem fromBytes_spec {n : Nat} {bs : Bytes} (h : bs.length = 8 * n) : IsWords n (fromBytes n bs) ∧ val (fromBytes n bs) = leNat bs := by
  have e256 : B64 = 256 ^ 8 := by unfold B64; norm_num
  induction n generalizing bs with
  | zero =>
    have : bs = [] := List.length_eq_zero_iff.1 (by omega)
    subst this
    exact ⟨isWords_nil, rfl⟩
  | succ n ih =>
    obtain ⟨h1, h2⟩ := ih (bs := bs.drop 8) (by rw [List.length_drop]; omega)
    have hl : (bs.take 8).length = 8 := by rw [List.length_take]; omega
    refine ⟨isWords_cons (by rw [e256]; have := leNat_lt (bs.take 8); rwa [hl] at this) h1, ?_⟩
    have app : ∀ l l' : Bytes, leNat (l ++ l') = leNat l + 256 ^ l.length * leNat l' := by
      intro l l'
      induction l with
      | nil => simp [leNat]
      | cons x xs ih => simp only [List.cons_append, leNat, ih, List.length_cons, pow_succ]; ring
    simp only [fromBytes, val, h2]
    conv_rhs => rw [← List.take_append_drop 8 bs, app, hl]
    rw [e256]

end

end GS.Words
