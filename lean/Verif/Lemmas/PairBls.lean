import Verif.Lemmas.PairGen
import Verif.Lemmas.CoordRep

/-! # The pairing of BLS12-381 as a bilinear map -/

open Polynomial

namespace GS

theorem zsmul_killed {A : Type} [AddCommGroup A] {r : Nat} {x : A} (hx : r • x = 0) {k : ℤ} (hk : (k : ZMod r) = 0) : k • x = 0 := by
  rw [ZMod.intCast_zmod_eq_zero_iff_dvd] at hk
  obtain ⟨c, rfl⟩ := hk
  rw [mul_comm, mul_zsmul, natCast_zsmul, hx, zsmul_zero]

theorem ker_killed {A : Type} [AddCommGroup A] {r : Nat} (x : (nsmulAddMonoidHom (α := A) r).ker) : r • x = 0 := Subtype.ext x.2

section
variable {K : Type} [Field K] [DecidableEq K] [Fintype K] [Fact (∀ r : K, r ^ 2 ≠ -1 + 0 * r)] [Fact (Irreducible (X ^ 3 - C (xiFq6 K)))]
  [Fact (∀ b : Fq6 K, b ^ 2 ≠ xiFq12 K + 0 * b)] (hc : Fintype.card K = p381)
include hc

theorem one_good : GoodP p381 (pack baseB [1, 0, 0, 0, 0, 0, 0, 0, 0, 0, 0, 0]) ∧ valP (rootW K) (pack baseB [1, 0, 0, 0, 0, 0, 0, 0, 0, 0, 0, 0]) = 1 := by
  refine ⟨⟨_, rfl, by decide +kernel, rfl⟩, ?_⟩
  rw [valP_pack rfl (by decide +kernel)]
  simp [evL]

theorem genMiller_eq : GoodP p381 genMiller ∧
    valP (rootW K) genMiller = millerValue (K := K) ⟨g1x, g1y, false⟩ ⟨toFq2 g2x, toFq2 g2y, false⟩ := by
  obtain ⟨h1, h2⟩ := singleP_eq (K := K) hc g1x g1y g2x g2y loopBits (g2x, g2y, (1, 0)) _ (one_good hc).1
  refine ⟨h1, h2.trans ?_⟩
  rw [(one_good hc).2, millerValue, if_neg (by simp), toFq2_eq, toFq2_eq]
  have : (HomP.ev (g2x, g2y, (1, 0)) : G2Hom K) = ⟨evPair fq2u g2x, evPair fq2u g2y, 1⟩ := by
    rw [HomP.ev]
    simp [evPair]
  exact congrArg (fun R => single (g1x : K) (g1y : K) (evPair fq2u g2x) (evPair fq2u g2y) loopBits R 1) this

theorem cast_dvd {n : Nat} (h : ((n : Nat) : K) = 0) : p381 ∣ n := by
  have : CharP K p381 := (CharP.charP_iff_prime_eq_zero p381_prime).mpr (fq_zero hc)
  exact (CharP.cast_eq_zero_iff K p381 n).mp h

theorem hard_powers {F : Fq12 K} (h : F ^ finalExp = 1) : (F ^ hardExp).im = 0 := by
  have h1 : (F ^ hardExp) ^ (p381 ^ 6 - 1) = 1 := by
    rw [gen_facts.2.1] at h
    exact (pow_mul _ _ _).symm.trans h
  have h2 : star (F ^ hardExp) = F ^ hardExp := by
    rw [star_eq_pow hc]
    generalize F ^ hardExp = g at h1 ⊢
    have e : p381 ^ 6 = p381 ^ 6 - 1 + 1 := by decide +kernel
    generalize p381 ^ 6 - 1 = n at h1 e
    rw [e]
    refine (pow_succ _ _).trans ?_
    rw [h1, one_mul]
  generalize F ^ hardExp = g at h2
  have h3 := congrArg QuadraticAlgebra.im h2
  have h4 : (2 : Fq6 K) * g.im = 0 := by
    have : -g.im = g.im := by simpa using h3
    linear_combination -this
  rcases mul_eq_zero.mp h4 with h | h
  · exact absurd h (by
      have : CharP K p381 := (CharP.charP_iff_prime_eq_zero p381_prime).mpr (fq_zero hc)
      intro h2
      have : algebraMap (Fq2 K) (Fq6 K) (algebraMap K (Fq2 K) 2) = algebraMap (Fq2 K) (Fq6 K) (algebraMap K (Fq2 K) 0) := by
        rw [map_ofNat, map_ofNat, h2, map_zero, map_zero]
      exact p381_two (fq_zero hc) ((algebraMap K (Fq2 K)).injective ((algebraMap (Fq2 K) (Fq6 K)).injective this)))
  · exact h

theorem gen_ne : millerValue (K := K) ⟨g1x, g1y, false⟩ ⟨toFq2 g2x, toFq2 g2y, false⟩ ^ finalExp ≠ 1 := by
  intro h
  have h := hard_powers hc h
  obtain ⟨hg, he⟩ := genMiller_eq (K := K) hc
  rw [← he] at h
  obtain ⟨h1, h2⟩ := powLoop_eq (K := K) hc hg hardBits 1 genMiller hg (pow_one _).symm
  rw [gen_facts.1] at h2
  rw [← h2] at h
  have hd := gen_computed
  generalize powLoop p381 genMiller hardBits genMiller = n at h h1 hd
  rw [valP, evL_im (length_unpack _ _ _)] at h
  have hz : mkFq6 (0, 0, 0) = (0 : Fq6 K) := by rw [mkFq6_eq]; simp
  have h5 := congrArg Prod.fst (mkFq6_bijective.1 (h.trans hz.symm))
  have hi := congrArg QuadraticAlgebra.im h5
  have hr := congrArg QuadraticAlgebra.re h5
  simp [xiFq6] at hi hr
  rw [hi, add_zero] at hr
  have := cast_dvd hc hr
  have h1 : p381 = 1 := (Nat.gcd_eq_right this).symm.trans hd
  exact absurd h1 (by decide +kernel)


variable (K) in
omit hc [Fintype K] in
/-- The generator of the second group. -/
theorem exists_g2 (hp : (p381 : K) = 0) : ∃ g : (cubic (⟨4, 4⟩ : Fq2 K)).Point, r381 • g = 0 ∧ g ≠ 0 ∧ coordsOf g = ⟨toFq2 g2x, toFq2 g2y, false⟩ := by
  have hp := fq2_zero hp
  rw [b2_eq, toFq2_eq, toFq2_eq]
  exact ⟨g2Point hp fq2u_sq, g2Point_killed hp fq2u_sq, g2Point_ne hp fq2u_sq, rfl⟩

/-- The generators. -/
noncomputable def gen1 : Tor1 K := ⟨g1Point (fq_zero hc), g1Point_killed (fq_zero hc)⟩

/-- The generators. -/
noncomputable def gen2 : Tor2 K := ⟨(exists_g2 K (fq_zero hc)).choose, (exists_g2 K (fq_zero hc)).choose_spec.1⟩

theorem reduced_gen : reduced (gen1 hc) (gen2 hc) ≠ (1 : Fq12 K) := by
  have h := gen_ne (K := K) hc
  rw [reduced, gen2, (exists_g2 K (fq_zero hc)).choose_spec.2.2]
  exact h

theorem reduced_root (P : Tor1 K) (Q : Tor2 K) : (reduced P Q : Fq12 K) ^ r381 = 1 := by
  refine finalExp_root hc ?_
  intro h
  refine reduced_ne hc P Q ?_
  rw [reduced, h]
  exact zero_pow (by decide +kernel)

theorem miller_ne (P : Tor1 K) (Q : Tor2 K) : (millerValue (coordsOf P.1) (coordsOf Q.1) : Fq12 K) ≠ 0 := by
  intro h
  refine reduced_ne hc P Q ?_
  rw [reduced, h]
  exact zero_pow (by decide +kernel)

/-- The pairing as an element of the target group: the conjugate of the power of the value of the loop. -/
noncomputable def gtPair (P : Tor1 K) (Q : Tor2 K) : Gt K :=
  Additive.ofMul ⟨Units.mk0 (star (reduced P Q)) (fun h => reduced_ne hc P Q (star_eq_zero.mp h)), by
    rw [mem_rootsOfUnity]
    refine Units.ext ?_
    rw [Units.val_pow_eq_pow_val, Units.val_mk0, ← star_pow, reduced_root hc, star_one, Units.val_one]⟩

theorem gtPair_rep (P : Tor1 K) (Q : Tor2 K) : gtRep (gtPair hc P Q) = star (reduced P Q) := rfl

theorem gtPair_add_left (P P' : Tor1 K) (Q : Tor2 K) : gtPair hc (P + P') Q = gtPair hc P Q + gtPair hc P' Q := by
  refine gtOut_adds.injective ?_
  show star (reduced (P + P') Q) = star (reduced P Q) * star (reduced P' Q)
  rw [reduced_add_left hc, star_mul']

theorem gtPair_add_right (P : Tor1 K) (Q Q' : Tor2 K) : gtPair hc P (Q + Q') = gtPair hc P Q + gtPair hc P Q' := by
  refine gtOut_adds.injective ?_
  show star (reduced P (Q + Q')) = star (reduced P Q) * star (reduced P Q')
  rw [reduced_add_right hc, star_mul']

theorem gtPair_gen : gtPair hc (gen1 hc) (gen2 hc) ≠ 0 := by
  intro h
  refine reduced_gen hc ?_
  have : star (reduced (gen1 hc) (gen2 hc)) = (1 : Fq12 K) := by
    rw [← gtPair_rep hc, h]
    rfl
  rw [← star_star (reduced (gen1 hc) (gen2 hc)), this, star_one]

/-- The pairing as a bilinear map. -/
noncomputable def gtPairHom : Tor1 K →+ Tor2 K →+ Gt K :=
  AddMonoidHom.mk' (fun P => AddMonoidHom.mk' (gtPair hc P) (gtPair_add_right hc P)) fun P P' => AddMonoidHom.ext fun Q => gtPair_add_left hc P P' Q

theorem gen1_multiple (P : Tor1 K) : ∃ k : ℤ, P = k • gen1 hc := by
  obtain ⟨k, hk⟩ := killed_multiple g1_bound.2.2.2.2.2 (g1_card hc) (g1Point_killed (fq_zero hc)) (g1Point_ne (fq_zero hc)) P.2
  exact ⟨k, Subtype.ext hk.symm⟩

theorem gen2_multiple (Q : Tor2 K) : ∃ k : ℤ, Q = k • gen2 hc := by
  obtain ⟨k, hk⟩ := killed_multiple g2_cofactor (g2_card' hc) (gen2 hc).2 (exists_g2 K (fq_zero hc)).choose_spec.2.1 Q.2
  exact ⟨k, Subtype.ext hk.symm⟩

/-- The pairing is 0 only if one of the points is. -/
theorem gtPair_eq_zero (P : Tor1 K) (Q : Tor2 K) : gtPair hc P Q = 0 ↔ P = 0 ∨ Q = 0 := by
  constructor
  · intro h
    obtain ⟨a, rfl⟩ := gen1_multiple hc P
    obtain ⟨b, rfl⟩ := gen2_multiple hc Q
    have h : gtPairHom hc (a • gen1 hc) (b • gen2 hc) = 0 := h
    rw [map_zsmul, map_zsmul, AddMonoidHom.zsmul_apply, ← Int.cast_smul_eq_zsmul (ZMod r381), ← Int.cast_smul_eq_zsmul (ZMod r381)] at h
    rcases smul_eq_zero.mp h with h | h
    · exact .inr (zsmul_killed (ker_killed (gen2 hc)) h)
    · rcases smul_eq_zero.mp h with h | h
      · exact .inl (zsmul_killed (ker_killed (gen1 hc)) h)
      · exact absurd h (gtPair_gen hc)
  · rintro (rfl | rfl)
    · exact DFunLike.congr_fun (map_zero (gtPairHom hc)) Q
    · exact map_zero (gtPairHom hc P)


end
end GS
