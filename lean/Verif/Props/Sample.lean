import Verif.Lemmas.Sample
import Verif.Lemmas.Fr381
import Verif.Props.Randomness
import Verif.Spec.Counts
import Verif.Props.Bls

/-!
# C115: scalars and generators drawn from the words of the random number generator

`wordAt word s i` is word number `i` of a generator in state `s`. An attempt looks at the lowest bits of as many words as an element has limbs.
-/

open scoped BigOperators

namespace GS

section scalars
variable {σ σ' : Type} {c : FpConfig} (word : σ → Fin (2 ^ c.wordBits) × σ) (word' : σ' → Fin (2 ^ c.wordBits) × σ')

/-- A scalar comes from the first attempt with a number below the modulus (which is the scalar in Montgomery form); the words up to there are used up,
no others. -/
theorem C115_scalar (hc : c.Lawful) [Fact c.modulus.Prime] (s : σ) (x : ZMod c.modulus) (s' : σ) :
    (∃ n, c.rand word n s = some (x, s')) ↔ ∃ k, (∀ j < k, c.modulus ≤ c.attempt word s j) ∧ c.attempt word s k < c.modulus ∧
      x * 2 ^ (c.wordBits * c.limbs) = c.attempt word s k ∧ s' = stateAt word s ((k + 1) * c.limbs) := by
  simp only [FpConfig.rand_iff hc, FpConfig.fromMont_iff hc]
  exact ⟨fun ⟨n, k, _, h⟩ => ⟨k, h⟩, fun ⟨k, h⟩ => ⟨k + 1, k, by omega, h⟩⟩

/-- Drawing a scalar never returns exactly if no attempt has a number below the modulus; for instance if all bits of all words are 1. -/
theorem C115_never (hc : c.Lawful) [Fact c.modulus.Prime] (s : σ) :
    ((∀ n, c.rand word n s = none) ↔ ∀ k, c.modulus ≤ c.attempt word s k) ∧
    ((∀ i, wordAt word s i = 2 ^ c.wordBits - 1) → ∀ n, c.rand word n s = none) := by
  have h : (∀ n, c.rand word n s = none) ↔ ∀ k, c.modulus ≤ c.attempt word s k := by
    constructor
    · intro h k
      induction k using Nat.strong_induction_on with
      | _ k ih =>
        by_contra hk
        have := (FpConfig.rand_iff hc word (k + 1) s _ _).mpr ⟨k, by omega, ih, by omega, rfl, rfl⟩
        rw [h] at this
        exact absurd this (by simp)
    · intro h n
      cases hr : c.rand word n s with
      | none => rfl
      | some r =>
        obtain ⟨k, -, -, hk, -⟩ := (FpConfig.rand_iff hc word n s r.1 r.2).mp hr
        exact absurd (h k) (by omega)
  refine ⟨h, fun h1 => h.mpr fun k => ?_⟩
  have hsum : ∀ N, ∑ i ∈ Finset.range N, (2 ^ c.wordBits - 1) * 2 ^ (c.wordBits * i) + 1 = 2 ^ (c.wordBits * N) := by
    intro N
    induction N with
    | zero => rfl
    | succ N ih =>
      have hp := Nat.two_pow_pos c.wordBits
      rw [Finset.sum_range_succ, Nat.add_right_comm, ih, Nat.mul_succ, Nat.pow_add]
      obtain ⟨q, hq⟩ : ∃ q, 2 ^ c.wordBits = q + 1 := ⟨2 ^ c.wordBits - 1, by omega⟩
      rw [hq]; simp only [Nat.add_sub_cancel]; ring
  have hs := hsum c.limbs
  have hb : 2 ^ (c.wordBits * c.limbs) = 2 ^ c.bits * 2 ^ c.shave := by
    rw [← Nat.pow_add]; congr 1; have := hc.fits; unfold FpConfig.shave; omega
  unfold FpConfig.attempt
  simp only [h1]
  have h2 := Nat.two_pow_pos c.bits
  have h3 := Nat.two_pow_pos c.shave
  have : ∑ i ∈ Finset.range c.limbs, (2 ^ c.wordBits - 1) * 2 ^ (c.wordBits * i) = (2 ^ c.bits - 1) + 2 ^ c.bits * (2 ^ c.shave - 1) := by
    obtain ⟨q, hq⟩ : ∃ q, 2 ^ c.shave = q + 1 := ⟨2 ^ c.shave - 1, by omega⟩
    rw [hb, hq, Nat.mul_succ] at hs
    rw [hq, Nat.add_sub_cancel]
    omega
  rw [this, Nat.add_mul_mod_self_left, Nat.mod_eq_of_lt (by omega)]
  have := hc.high
  omega

/-- `rands` is drawing one scalar after the other, each from the state that the one before has left; how many attempts are allowed makes no difference
to what is returned. -/
theorem C115_in_turn (hc : c.Lawful) (M : Nat) (s s' : σ) (x : ZMod c.modulus) (l : List (ZMod c.modulus)) :
    ((∃ n, c.rands word (M + 1) n s = some (x :: l, s')) ↔
      ∃ t, (∃ n, c.rand word n s = some (x, t)) ∧ ∃ n, c.rands word M n t = some (l, s')) ∧
    ∀ n n' r r', c.rands word M n s = some r → c.rands word M n' s = some r' → r = r' :=
  ⟨FpConfig.rands_cons hc word M s s' x l, fun n n' r r' h h' => FpConfig.rands_fun hc word M n n' s r r' h h'⟩

/-- The same for the coordinates of points over a quadratic extension. -/
theorem C115_quad (hc : c.Lawful) {C : Type} (mk : ZMod c.modulus × ZMod c.modulus → C) (hmk : Function.Injective mk) (s s' : σ) (x y : ZMod c.modulus) :
    (∃ n, quadRand (c.rand word n) mk s = some (mk (x, y), s')) ↔ ∃ n, c.rands word 2 n s = some ([x, y], s') := by
  rw [FpConfig.rands_cons hc word 1]
  simp only [FpConfig.rands_cons hc word 0]
  have h0 : ∀ t t' : σ, (∃ n, c.rands word 0 n t = some ([], t')) ↔ t = t' := fun t t' => by simp [FpConfig.rands]
  simp only [h0]
  constructor
  · rintro ⟨n, h⟩
    simp only [quadRand, Option.bind_eq_bind, Option.bind_eq_some_iff, Option.pure_def, Option.some.injEq, Prod.mk.injEq] at h
    obtain ⟨⟨x', t⟩, h1, ⟨y', t'⟩, h2, h3, rfl⟩ := h
    have := hmk h3
    simp only [Prod.mk.injEq] at this
    obtain ⟨rfl, rfl⟩ := this
    exact ⟨t, ⟨n, h1⟩, _, ⟨n, h2⟩, rfl⟩
  · rintro ⟨t, ⟨n, hn⟩, t', ⟨m, hm⟩, rfl⟩
    have e1 : c.rand word (n + m) s = some (x, t) := by
      rw [FpConfig.rand_iff hc] at hn ⊢
      obtain ⟨k, hk, h⟩ := hn
      exact ⟨k, by omega, h⟩
    have e2 : c.rand word (n + m) t = some (y, t') := by
      rw [FpConfig.rand_iff hc] at hm ⊢
      obtain ⟨k, hk, h⟩ := hm
      exact ⟨k, by omega, h⟩
    exact ⟨n + m, by simp [quadRand, e1, e2]⟩

/-- If every sequence of words is equally likely, so is every sequence of scalars, however many attempts are made. -/
theorem C115_uniform (hc : c.Lawful) [Fact c.modulus.Prime] (M n : Nat) (l l' : List (ZMod c.modulus)) (hl : l.length = M) (hl' : l'.length = M) :
    c.count M n (some l) = c.count M n (some l') := by
  rw [FpConfig.count_eq hc, FpConfig.count_eq hc]
  exact cnt_uniform _ _ (FpConfig.card_some hc) M n l l' hl hl'

theorem card_words (c : FpConfig) (n : Nat) : Nat.card (Fin (n * c.limbs) → Fin (2 ^ c.wordBits)) = 2 ^ (c.wordBits * c.limbs * n) := by
  rw [Nat.card_eq_fintype_card, Fintype.card_fun, Fintype.card_fin, Fintype.card_fin, ← Nat.pow_mul]
  congr 1; ring

theorem card_block (c : FpConfig) : Nat.card (Fin c.limbs → Fin (2 ^ c.wordBits)) = 2 ^ (c.wordBits * c.limbs) := by
  rw [Nat.card_eq_fintype_card, Fintype.card_fun, Fintype.card_fin, Fintype.card_fin, ← Nat.pow_mul]

theorem rej_half (hc : c.Lawful) : 2 ^ c.shave * (2 ^ c.bits - c.modulus) * 2 ≤ 2 ^ (c.wordBits * c.limbs) := by
  have hb : 2 ^ (c.wordBits * c.limbs) = 2 ^ c.shave * 2 ^ c.bits := by
    rw [← Nat.pow_add]; congr 1; have := hc.fits; unfold FpConfig.shave; omega
  rw [hb, Nat.mul_assoc]
  have := hc.low
  have hp := Nat.two_pow_pos c.bits
  exact Nat.mul_le_mul_left _ (by omega)

/-- How many choices of the words of `n` attempts give no scalar: fewer by half with each attempt, at least. -/
theorem C115_fail (hc : c.Lawful) (n : Nat) :
    c.count 1 n none = (2 ^ c.shave * (2 ^ c.bits - c.modulus)) ^ n ∧
    c.count 1 n none * 2 ^ n ≤ Nat.card (Fin (n * c.limbs) → Fin (2 ^ c.wordBits)) := by
  have h : c.count 1 n none = (2 ^ c.shave * (2 ^ c.bits - c.modulus)) ^ n := by
    rw [FpConfig.count_eq hc, cnt_fail, FpConfig.card_none hc]
  refine ⟨h, ?_⟩
  rw [h, card_words, ← Nat.mul_pow, Nat.pow_mul 2]
  exact Nat.pow_le_pow_left (rej_half hc) n

/-- Of the choices of the words of `M k` attempts, no more than `M / 2^k` do not give `M` scalars. -/
theorem C115_fail_many (hc : c.Lawful) (M k : Nat) :
    (c.count M (M * k) none : ℝ) / Nat.card (Fin (M * k * c.limbs) → Fin (2 ^ c.wordBits)) ≤ M * (1 / 2) ^ k := by
  have h := share_le c.try M k
  rw [FpConfig.count_eq hc, card_words]
  have hA : (Nat.card (Fin c.limbs → Fin (2 ^ c.wordBits)) : ℝ) ^ (M * k) = ((2 ^ (c.wordBits * c.limbs * (M * k)) : ℕ) : ℝ) := by
    rw [card_block]; push_cast; rw [← pow_mul]
  rw [← hA]
  refine h.trans (mul_le_mul_of_nonneg_left (pow_le_pow_left₀ (by positivity) ?_ k) (by positivity))
  rw [FpConfig.card_none hc, card_block]
  have h2 : ((2 ^ c.shave * (2 ^ c.bits - c.modulus) * 2 : ℕ) : ℝ) ≤ ((2 ^ (c.wordBits * c.limbs) : ℕ) : ℝ) := by exact_mod_cast rej_half hc
  have hp : (0 : ℝ) < ((2 ^ (c.wordBits * c.limbs) : ℕ) : ℝ) := by positivity
  rw [div_le_div_iff₀ hp (by norm_num)]
  push_cast at h2 ⊢
  linarith

/-- How often a result of `M` scalars occurs among the choices of words that give `M` scalars is how often it occurs among the tapes of `M` scalars, to
which the other theorems about random draws refer. -/
theorem C115_views (hc : c.Lawful) [Fact c.modulus.Prime] {α : Type} (M n : Nat) (view : (Fin M → ZMod c.modulus) → Res α) (r : α) :
    Nat.card {w : Fin (n * c.limbs) → Fin (2 ^ c.wordBits) //
        ∃ t, (c.rands listWord M n (List.ofFn w)).map Prod.fst = some (List.ofFn t) ∧ view t = .ok r} * c.modulus ^ M =
      Nat.card {w : Fin (n * c.limbs) → Fin (2 ^ c.wordBits) // c.rands listWord M n (List.ofFn w) ≠ none} * tapeCount view r := by
  classical
  have key : ∀ Q : (Fin M → ZMod c.modulus) → Prop, Nat.card {w : Fin (n * c.limbs) → Fin (2 ^ c.wordBits) //
      ∃ t, (c.rands listWord M n (List.ofFn w)).map Prod.fst = some (List.ofFn t) ∧ Q t} =
      Nat.card {t // Q t} * c.count M n (some (List.ofFn fun _ : Fin M => 0)) := by
    intro Q
    have e : {w : Fin (n * c.limbs) → Fin (2 ^ c.wordBits) //
        ∃ t, (c.rands listWord M n (List.ofFn w)).map Prod.fst = some (List.ofFn t) ∧ Q t} ≃
        Σ t : {t // Q t}, {w : Fin (n * c.limbs) → Fin (2 ^ c.wordBits) // (c.rands listWord M n (List.ofFn w)).map Prod.fst = some (List.ofFn t.1)} := by
      refine ⟨fun w => ⟨⟨w.2.choose, w.2.choose_spec.2⟩, w.1, w.2.choose_spec.1⟩, fun z => ⟨z.2.1, z.1.1, z.2.2, z.1.2⟩, fun w => rfl, ?_⟩
      rintro ⟨⟨t, ht⟩, w, hw⟩
      have hex : ∃ t, (c.rands listWord M n (List.ofFn w)).map Prod.fst = some (List.ofFn t) ∧ Q t := ⟨t, hw, ht⟩
      have : hex.choose = t := by
        have h5 := hw.symm.trans hex.choose_spec.1
        exact (List.ofFn_injective (Option.some.inj h5)).symm
      refine Sigma.ext (Subtype.ext this) ?_
      refine (Subtype.heq_iff_coe_eq fun w' => ?_).mpr rfl
      simp only
      rw [this]
    have : Fintype {t : Fin M → ZMod c.modulus // Q t} := Fintype.ofFinite _
    rw [Nat.card_congr e, Nat.card_sigma]
    have hcount : ∀ t : {t : Fin M → ZMod c.modulus // Q t}, Nat.card {w : Fin (n * c.limbs) → Fin (2 ^ c.wordBits) //
        (c.rands listWord M n (List.ofFn w)).map Prod.fst = some (List.ofFn t.1)} = c.count M n (some (List.ofFn fun _ : Fin M => 0)) :=
      fun t => C115_uniform hc M n _ _ (by simp) (by simp)
    simp only [hcount, Finset.sum_const, Finset.card_univ, smul_eq_mul, Nat.card_eq_fintype_card]
  have hall : Nat.card {w : Fin (n * c.limbs) → Fin (2 ^ c.wordBits) // c.rands listWord M n (List.ofFn w) ≠ none} =
      c.modulus ^ M * c.count M n (some (List.ofFn fun _ : Fin M => 0)) := by
    have h := key fun _ => True
    have hT : Nat.card {t : Fin M → ZMod c.modulus // True} = c.modulus ^ M := by
      rw [Nat.card_congr (Equiv.subtypeUnivEquiv fun _ => trivial), Nat.card_eq_fintype_card, Fintype.card_fun, ZMod.card, Fintype.card_fin]
    rw [hT] at h
    rw [← h]
    refine Nat.card_congr (Equiv.subtypeEquivRight fun w => ?_)
    simp only [and_true]
    rw [ofFn_words, ← List.append_nil (List.flatten _), FpConfig.rands_list hc, Ne, ← Option.map_eq_none_iff (f := Prod.fst), FpConfig.rands_list hc]
    constructor
    · intro h
      obtain ⟨l, hl⟩ := Option.ne_none_iff_exists'.mp h
      have hlen := firsts_length _ _ _ _ _ hl
      exact ⟨fun i => l[i.val]'(by omega), by rw [hl]; congr 1; subst hlen; simp⟩
    · rintro ⟨t, ht⟩
      rw [ht]; simp
  rw [key fun t => view t = .ok r, hall, tapeCount]
  ring

end scalars

/-! ### Calls -/

section calls
variable {σ σ' G1 G2 GT : Type} {c : FpConfig} [Fact c.modulus.Prime] [AddCommGroup G1] [Module (ZMod c.modulus) G1] [AddCommGroup G2]
  [Module (ZMod c.modulus) G2] [AddCommGroup GT] [Module (ZMod c.modulus) GT]
  [Rng σ (ZMod c.modulus) G1 G2] [Rng σ' (ZMod c.modulus) G1 G2]
  (word : σ → Fin (2 ^ c.wordBits) × σ) (word' : σ' → Fin (2 ^ c.wordBits) × σ')

/-- Two generators with the same words give the same commitments and proof, whatever the schedules, and the same number of words is used up. -/
theorem C115_same_words_ppe (hc : c.Lawful) (hs : c.Samples word G1 G2) (hs' : c.Samples word' G1 G2) (equ : PPE (ZMod c.modulus) G1 G2 GT)
    (x : List G1) (y : List G2) (sch sch' : Nat → Scheduler) (crs : CRS G1 G2 GT) (s t : σ) (s' : σ') (cp : CProof (ZMod c.modulus) G1 G2)
    (h : ∀ i, wordAt word s i = wordAt word' s' i) (hcp : equ.commitAndProve sch x y crs s = .ok (cp, t)) :
    ∃ j, 2 * x.length + 2 * y.length + 4 ≤ j ∧ t = stateAt word s (j * c.limbs) ∧
      equ.commitAndProve sch' x y crs s' = .ok (cp, stateAt word' s' (j * c.limbs)) := by
  obtain ⟨⟨pf, -, hd⟩, h'⟩ := C39_ppe (ρ' := σ') equ x y sch crs s t cp hcp
  obtain ⟨j, hj, h1, h2⟩ := FpConfig.draws_congr hc word word' hs hs' _ s s' h
  rw [hd] at h1
  exact ⟨j, hj, h1, h' sch' s' _ h2⟩

theorem C115_same_words_msmeg1 (hc : c.Lawful) (hs : c.Samples word G1 G2) (hs' : c.Samples word' G1 G2) (equ : MSMEG1 (ZMod c.modulus) G1)
    (x : List G1) (y : List (ZMod c.modulus)) (sch sch' : Nat → Scheduler) (crs : CRS G1 G2 GT) (s t : σ) (s' : σ') (cp : CProof (ZMod c.modulus) G1 G2)
    (h : ∀ i, wordAt word s i = wordAt word' s' i) (hcp : equ.commitAndProve sch x y crs s = .ok (cp, t)) :
    ∃ j, 2 * x.length + y.length + 2 ≤ j ∧ t = stateAt word s (j * c.limbs) ∧
      equ.commitAndProve sch' x y crs s' = .ok (cp, stateAt word' s' (j * c.limbs)) := by
  obtain ⟨⟨pf, -, hd⟩, h'⟩ := C39_msmeg1 (ρ' := σ') equ x y sch crs s t cp hcp
  obtain ⟨j, hj, h1, h2⟩ := FpConfig.draws_congr hc word word' hs hs' _ s s' h
  rw [hd] at h1
  exact ⟨j, hj, h1, h' sch' s' _ h2⟩

theorem C115_same_words_msmeg2 (hc : c.Lawful) (hs : c.Samples word G1 G2) (hs' : c.Samples word' G1 G2) (equ : MSMEG2 (ZMod c.modulus) G2)
    (x : List (ZMod c.modulus)) (y : List G2) (sch sch' : Nat → Scheduler) (crs : CRS G1 G2 GT) (s t : σ) (s' : σ') (cp : CProof (ZMod c.modulus) G1 G2)
    (h : ∀ i, wordAt word s i = wordAt word' s' i) (hcp : equ.commitAndProve sch x y crs s = .ok (cp, t)) :
    ∃ j, x.length + 2 * y.length + 2 ≤ j ∧ t = stateAt word s (j * c.limbs) ∧
      equ.commitAndProve sch' x y crs s' = .ok (cp, stateAt word' s' (j * c.limbs)) := by
  obtain ⟨⟨pf, -, hd⟩, h'⟩ := C39_msmeg2 (ρ' := σ') equ x y sch crs s t cp hcp
  obtain ⟨j, hj, h1, h2⟩ := FpConfig.draws_congr hc word word' hs hs' _ s s' h
  rw [hd] at h1
  exact ⟨j, hj, h1, h' sch' s' _ h2⟩

theorem C115_same_words_quad (hc : c.Lawful) (hs : c.Samples word G1 G2) (hs' : c.Samples word' G1 G2) (equ : QuadEqu (ZMod c.modulus))
    (x y : List (ZMod c.modulus)) (sch sch' : Nat → Scheduler) (crs : CRS G1 G2 GT) (s t : σ) (s' : σ') (cp : CProof (ZMod c.modulus) G1 G2)
    (h : ∀ i, wordAt word s i = wordAt word' s' i) (hcp : equ.commitAndProve sch x y crs s = .ok (cp, t)) :
    ∃ j, x.length + y.length + 1 ≤ j ∧ t = stateAt word s (j * c.limbs) ∧
      equ.commitAndProve sch' x y crs s' = .ok (cp, stateAt word' s' (j * c.limbs)) := by
  obtain ⟨⟨pf, -, hd⟩, h'⟩ := C39_quad (ρ' := σ') equ x y sch crs s t cp hcp
  obtain ⟨j, hj, h1, h2⟩ := FpConfig.draws_congr hc word word' hs hs' _ s s' h
  rw [hd] at h1
  exact ⟨j, hj, h1, h' sch' s' _ h2⟩

end calls

/-! ### Points -/

section points
variable {B G A : Type} [Field B] [DecidableEq B] {E : SWCurve B}

/-- A point of the curve other than the identity stands for one choice of coordinate and sign, for both signs if its second coordinate is its own
negative; no choice gives the identity or a pair off the curve. -/
theorem C115_points (hE : E.Lawful) (P : Affine B) :
    Nat.card {a : B × Bool // E.pointFromX a.1 a.2 = some P} =
      if P.infinity = true ∨ E.onCurve P = false then 0 else if P.y = -P.y then 2 else 1 := by
  simp only [SWCurve.pointFromX_iff hE]
  split_ifs with h1 h2
  · rw [Nat.card_eq_zero]
    refine .inl ⟨fun a => ?_⟩
    obtain ⟨hi, hx, hy, -⟩ := a.2
    rcases h1 with h | h
    · simp [h] at hi
    · simp [SWCurve.onCurve, hi, hx, hy] at h
  · simp only [not_or, Bool.not_eq_true, Bool.not_eq_false] at h1
    have hy : P.y * P.y = E.rhs P.x := by simpa [SWCurve.onCurve, h1.1] using h1.2
    have e : {a : B × Bool // P.infinity = false ∧ P.x = a.1 ∧ P.y * P.y = E.rhs a.1 ∧ (a.2 = !E.le P.y (-P.y) ∨ P.y = -P.y)} ≃ Bool :=
      ⟨fun a => a.1.2, fun b => ⟨(P.x, b), h1.1, rfl, hy, .inr h2⟩, fun ⟨⟨x, b⟩, h⟩ => Subtype.ext (Prod.ext h.2.1 rfl), fun _ => rfl⟩
    rw [Nat.card_congr e]; simp
  · simp only [not_or, Bool.not_eq_true, Bool.not_eq_false] at h1
    have hy : P.y * P.y = E.rhs P.x := by simpa [SWCurve.onCurve, h1.1] using h1.2
    rw [Nat.card_eq_one_iff_unique]
    refine ⟨⟨fun a b => ?_⟩, ⟨⟨(P.x, !E.le P.y (-P.y)), h1.1, rfl, hy, .inl rfl⟩⟩⟩
    refine Subtype.ext (Prod.ext (a.2.2.1.symm.trans b.2.2.1) ?_)
    rw [a.2.2.2.2.resolve_right h2, b.2.2.2.2.resolve_right h2]

variable [Fintype B] [AddCommGroup A] [Finite A] [AddCommGroup G] [DecidableEq G] (pts : A ≃ {P : Affine B // E.proper P = true})

/-- The generators that `generate_crs` draws: `A` is the group of the curve, multiplying by the cofactor maps it onto `G`. If every choice of coordinates
and signs is equally likely, all generators other than zero are equally likely; zero is less likely, and never drawn if nothing is lost by the
multiplication. -/
theorem C115_generator (hE : E.Lawful) (h2 : E.NoOrderTwo) (h0 : (pts 0).1 = Affine.identity) (φ : A →+ G) (hφ : Function.Surjective φ)
    (clear : Affine B → G) (hclear : ∀ z, clear (pts z).1 = φ z) (n : Nat) :
    (∃ k, (0 < n → 0 < k) ∧ ∀ g, E.count clear n (some g) = k * if g = 0 then Nat.card φ.ker - 1 else Nat.card φ.ker) ∧
    E.count clear n none = (2 * Nat.card B - (Nat.card A - 1)) ^ n := by
  have hcard : ∀ g, Nat.card {a : B × Bool // (E.pointFromX a.1 a.2).map clear = some g} = if g = 0 then Nat.card φ.ker - 1 else Nat.card φ.ker := by
    intro g
    rw [SWCurve.card_clear hE h2 pts h0]
    simp only [hclear]
    exact card_fiber φ hφ g
  constructor
  · obtain ⟨k, hk, h⟩ := cnt_one (fun a : B × Bool => (E.pointFromX a.1 a.2).map clear) n
    exact ⟨k, fun hn => hk hn ⟨(0, true)⟩, fun g => by rw [SWCurve.count_some, h, hcard]⟩
  · rw [SWCurve.count_none, cnt_fail]
    congr 1
    have hsplit := card_split fun a : B × Bool => (E.pointFromX a.1 a.2).map fun _ => ()
    have hB : Nat.card (B × Bool) = 2 * Nat.card B := by rw [Nat.card_prod]; simp [Nat.mul_comm]
    have hA : Nat.card {a : B × Bool // (E.pointFromX a.1 a.2).map (fun _ => ()) ≠ none} = Nat.card A - 1 := by
      have h := SWCurve.card_clear hE h2 pts h0 (fun _ => ()) ()
      have e : ∀ a : B × Bool, (E.pointFromX a.1 a.2).map (fun _ => ()) ≠ none ↔ (E.pointFromX a.1 a.2).map (fun _ => ()) = some () := fun a => by
        cases E.pointFromX a.1 a.2 <;> simp
      simp only [e, h, and_true]
      have := Fintype.ofFinite A
      classical
      rw [Nat.card_eq_fintype_card, Nat.card_eq_fintype_card, Fintype.card_subtype_compl, Fintype.card_subtype_eq]
    rw [hB, hA] at hsplit
    have hnn : ∀ a : B × Bool, (E.pointFromX a.1 a.2).map clear = none ↔ (E.pointFromX a.1 a.2).map (fun _ => ()) = none := fun a => by simp
    simp only [hnn]
    have : 2 * Nat.card B = Nat.card {a : B × Bool // (E.pointFromX a.1 a.2).map (fun _ => ()) = none} + (Nat.card A - 1) := by exact_mod_cast hsplit
    omega

/-- The share of zero among the generators drawn: `h - 1` to `|A| - 1` for a kernel of `h` elements. That is at most the share in uniform choice. -/
theorem C115_generator_zero [Fintype G] (hE : E.Lawful) (h2 : E.NoOrderTwo) (h0 : (pts 0).1 = Affine.identity) (φ : A →+ G) (hφ : Function.Surjective φ)
    (clear : Affine B → G) (hclear : ∀ z, clear (pts z).1 = φ z) (n : Nat) :
    E.count clear n (some 0) * (Nat.card A - 1) = (∑ g, E.count clear n (some g)) * (Nat.card φ.ker - 1) ∧
    E.count clear n (some 0) * Fintype.card G ≤ ∑ g, E.count clear n (some g) ∧
    (Function.Injective φ → E.count clear n (some 0) = 0) := by
  obtain ⟨⟨k, -, hk⟩, -⟩ := C115_generator pts hE h2 h0 φ hφ clear hclear n
  have hpos : 0 < Nat.card φ.ker := Nat.card_pos
  have hG : 0 < Fintype.card G := Fintype.card_pos
  have hA : Nat.card A = Nat.card φ.ker * Fintype.card G := by
    have h := AddSubgroup.card_eq_card_quotient_mul_card_addSubgroup φ.ker
    rw [h, Nat.card_congr (QuotientAddGroup.quotientKerEquivOfSurjective φ hφ).toEquiv, Nat.card_eq_fintype_card (α := G), Nat.mul_comm]
  have hsum : ∑ g, E.count clear n (some g) = k * (Nat.card A - 1) := by
    simp only [hk, ← Finset.mul_sum]
    congr 1
    rw [Finset.sum_ite, Finset.sum_const, Finset.sum_const, Finset.filter_eq', if_pos (Finset.mem_univ _), Finset.card_singleton, Finset.filter_ne',
      Finset.card_erase_of_mem (Finset.mem_univ _), Finset.card_univ, hA]
    obtain ⟨q, hq⟩ : ∃ q, Fintype.card G = q + 1 := ⟨Fintype.card G - 1, by omega⟩
    rw [hq, Nat.mul_succ]
    simp only [smul_eq_mul, one_mul, Nat.add_sub_cancel]
    rw [Nat.mul_comm q]
    omega
  rw [hsum, hk 0, if_pos rfl]
  refine ⟨by ring, ?_, ?_⟩
  · rw [Nat.mul_assoc]
    refine Nat.mul_le_mul_left _ ?_
    rw [hA, Nat.sub_mul]
    omega
  · intro hi
    have : Nat.card φ.ker = 1 := by rw [(AddMonoidHom.ker_eq_bot_iff φ).mpr hi]; simp
    rw [this]; simp

end points

/-! ### Instances -/

namespace Ex

/-- Seven, with words of four bits. -/
abbrev c7 : FpConfig := ⟨7, 4, 1, 3⟩

theorem c7_lawful : c7.Lawful := ⟨by decide, by decide, by decide, by decide, by decide, by decide⟩

instance : Fact (Nat.Prime c7.modulus) := inferInstanceAs (Fact (Nat.Prime 7))

/-- `ark_bls12_381::Fr`. -/
def fr381 : FpConfig := ⟨r381, 64, 4, 255⟩

theorem fr381_lawful : fr381.Lawful :=
  ⟨⟨(r381 - 1) / 2, by decide +kernel⟩, by decide, by decide +kernel, by decide +kernel, by decide, by decide⟩

instance : Fact (Nat.Prime fr381.modulus) := ⟨r381_prime⟩

/-- A counter. -/
structure Ctr where
  n : Nat
  deriving DecidableEq

def ctrWord (s : Ctr) : Fin (2 ^ c7.wordBits) × Ctr := (⟨s.n % 16, Nat.mod_lt _ (by decide)⟩, ⟨s.n + 1⟩)

theorem ctr_state (s : Ctr) (i : Nat) : stateAt ctrWord s i = ⟨s.n + i⟩ := by
  induction i with
  | zero => rfl
  | succ i ih => rw [stateAt, ih]; rfl

theorem ctr_attempt (s : Ctr) (k : Nat) : c7.attempt ctrWord s k = (s.n + k) % 8 := by
  simp only [FpConfig.attempt, Finset.sum_range_one, wordAt, ctr_state, ctrWord]
  show (s.n + (k * 1 + 0)) % 16 * 2 ^ (4 * 0) % 2 ^ 3 = _
  omega

theorem ctr_some (s : Ctr) : ∃ r, c7.rand ctrWord 2 s = some r := by
  by_cases h : s.n % 8 = 7
  · exact ⟨_, (FpConfig.rand_iff c7_lawful ctrWord 2 s _ _).mpr
      ⟨1, by omega, fun j hj => by rw [ctr_attempt]; show 7 ≤ _; omega, by rw [ctr_attempt]; show _ < 7; omega, rfl, rfl⟩⟩
  · exact ⟨_, (FpConfig.rand_iff c7_lawful ctrWord 2 s _ _).mpr
      ⟨0, by omega, fun j hj => by omega, by rw [ctr_attempt]; show _ < 7; omega, rfl, rfl⟩⟩

/-- Scalars from the words of the counter. -/
instance : Rng Ctr K K K where
  randF s := ((c7.rand ctrWord 2 s).getD (0, s))
  randG1 s := (1, s)
  randG2 s := (1, s)

theorem ctr_samples : c7.Samples ctrWord K K := fun s => by
  obtain ⟨r, hr⟩ := ctr_some s
  refine ⟨2, ?_⟩
  show _ = some ((c7.rand ctrWord 2 s).getD (0, s))
  rw [hr]; rfl

variable (s s' : Ctr)

/-- Seven is refused, and eight is the number zero; five is six in Montgomery form, as `6 * 16 = 5`. -/
example : (∃ n, c7.rand ctrWord n ⟨7⟩ = some (0, ⟨9⟩)) ∧ ∃ n, c7.rand ctrWord n ⟨5⟩ = some (6, ⟨6⟩) := by
  refine ⟨(C115_scalar ctrWord c7_lawful _ _ _).mpr ⟨1, ?_, by decide, by decide, by decide⟩,
    (C115_scalar ctrWord c7_lawful _ _ _).mpr ⟨0, by simp, by decide, by decide, by decide⟩⟩
  intro j hj
  obtain rfl : j = 0 := by omega
  decide
example := C115_never ctrWord c7_lawful s
example := C115_in_turn ctrWord c7_lawful 3 s s' 6 [1, 2, 3]
example := C115_quad ctrWord c7_lawful (C := K × K) id Function.injective_id s s' 1 2

/-- A stuck generator. -/
example (n : Nat) : c7.rand (fun _ : Unit => (15, ())) n () = none :=
  (C115_never (fun _ : Unit => (15, ())) c7_lawful ()).2 (fun _ => rfl) n

example (n : Nat) : fr381.rand (fun _ : Unit => (⟨2 ^ 64 - 1, by decide⟩, ())) n () = none :=
  (C115_never (fun _ : Unit => (⟨2 ^ 64 - 1, by decide⟩, ())) fr381_lawful ()).2 (fun _ => rfl) n

example (n : Nat) : c7.count 2 n (some [1, 2]) = c7.count 2 n (some [6, 0]) := C115_uniform c7_lawful 2 n _ _ rfl rfl
example (n : Nat) : fr381.count 2 n (some [1, 2]) = fr381.count 2 n (some [6, 0]) := C115_uniform fr381_lawful 2 n _ _ rfl rfl
example : c7.count 1 3 none = 8 := (C115_fail c7_lawful 3).1
example := (C115_fail fr381_lawful 100).2
example := C115_fail_many fr381_lawful 10 64
example := C115_views c7_lawful 3 5 (fun t => if t 0 = t 1 then .ok (t 2) else .error .assertFailed) 4

/-- The same words from another state. -/
theorem ctr_same (i : Nat) : wordAt ctrWord ⟨1⟩ i = wordAt ctrWord ⟨17⟩ i := by
  simp only [wordAt, ctr_state, ctrWord]
  omega

example (sch' : Nat → Scheduler) : ∃ cp t j, ppe7.commitAndProve (fun _ => seqSched) [2] [3, 4] crs7 (⟨1⟩ : Ctr) = .ok (cp, t) ∧
    ppe7.commitAndProve sch' [2] [3, 4] crs7 (⟨17⟩ : Ctr) = .ok (cp, ⟨17 + j⟩) := by
  obtain ⟨⟨cp, t⟩, h⟩ := ((C36_commit_and_prove (fun _ => seqSched) crs7 (⟨1⟩ : Ctr)).1 ppe7 [2] [3, 4]).mpr ⟨by simp, by simp, ppe7_dims, by decide, by decide⟩
  obtain ⟨j, -, -, h'⟩ := C115_same_words_ppe ctrWord ctrWord c7_lawful ctr_samples ctr_samples ppe7 [2] [3, 4] _ sch' crs7 ⟨1⟩ t ⟨17⟩ cp ctr_same h
  rw [ctr_state] at h'
  exact ⟨cp, t, _, h, h'⟩

example (sch' : Nat → Scheduler) : ∃ cp t j, msm1_7.commitAndProve (fun _ => seqSched) [2] [3, 4] crs7 (⟨1⟩ : Ctr) = .ok (cp, t) ∧
    msm1_7.commitAndProve sch' [2] [3, 4] crs7 (⟨17⟩ : Ctr) = .ok (cp, ⟨17 + j⟩) := by
  obtain ⟨⟨cp, t⟩, h⟩ := ((C36_commit_and_prove (fun _ => seqSched) crs7 (⟨1⟩ : Ctr)).2.1 msm1_7 [2] [3, 4]).mpr ⟨by simp, by simp, msm1_7_dims, by decide, by decide⟩
  obtain ⟨j, -, -, h'⟩ := C115_same_words_msmeg1 ctrWord ctrWord c7_lawful ctr_samples ctr_samples msm1_7 [2] [3, 4] _ sch' crs7 ⟨1⟩ t ⟨17⟩ cp ctr_same h
  rw [ctr_state] at h'
  exact ⟨cp, t, _, h, h'⟩

example (sch' : Nat → Scheduler) : ∃ cp t j, msm2_7.commitAndProve (fun _ => seqSched) [2] [3, 4] crs7 (⟨1⟩ : Ctr) = .ok (cp, t) ∧
    msm2_7.commitAndProve sch' [2] [3, 4] crs7 (⟨17⟩ : Ctr) = .ok (cp, ⟨17 + j⟩) := by
  obtain ⟨⟨cp, t⟩, h⟩ := ((C36_commit_and_prove (fun _ => seqSched) crs7 (⟨1⟩ : Ctr)).2.2.1 msm2_7 [2] [3, 4]).mpr ⟨by simp, by simp, msm2_7_dims, by decide, by decide⟩
  obtain ⟨j, -, -, h'⟩ := C115_same_words_msmeg2 ctrWord ctrWord c7_lawful ctr_samples ctr_samples msm2_7 [2] [3, 4] _ sch' crs7 ⟨1⟩ t ⟨17⟩ cp ctr_same h
  rw [ctr_state] at h'
  exact ⟨cp, t, _, h, h'⟩

example (sch' : Nat → Scheduler) : ∃ cp t j, quad7.commitAndProve (fun _ => seqSched) [2] [3, 4] crs7 (⟨1⟩ : Ctr) = .ok (cp, t) ∧
    quad7.commitAndProve sch' [2] [3, 4] crs7 (⟨17⟩ : Ctr) = .ok (cp, ⟨17 + j⟩) := by
  obtain ⟨⟨cp, t⟩, h⟩ := ((C36_commit_and_prove (fun _ => seqSched) crs7 (⟨1⟩ : Ctr)).2.2.2 quad7 [2] [3, 4]).mpr ⟨by simp, by simp, quad7_dims, by decide, by decide⟩
  obtain ⟨j, -, -, h'⟩ := C115_same_words_quad ctrWord ctrWord c7_lawful ctr_samples ctr_samples quad7 [2] [3, 4] _ sch' crs7 ⟨1⟩ t ⟨17⟩ cp ctr_same h
  rw [ctr_state] at h'
  exact ⟨cp, t, _, h, h'⟩

/-! A curve of 15 points with a subgroup of order 5. -/

abbrev K11 := ZMod 11
instance : Fact (Nat.Prime 11) := ⟨by decide⟩

def curve11 : SWCurve K11 where
  a := 1
  b := 7
  sqrt v := [0, 1, 2, 3, 4, 5, 6, 7, 8, 9, 10].find? fun r : K11 => r * r = v
  le x y := decide (x.val ≤ y.val)
  inSubgroup _ := true

theorem curve11_lawful : curve11.Lawful where
  root := by decide
  complete := by decide
  total := by decide
  antisymm := by decide
  identity := by decide

theorem curve11_noOrderTwo : curve11.NoOrderTwo := by unfold SWCurve.NoOrderTwo; decide

/-- The multiples of `(3, 2)`. -/
def mult11 (z : ZMod 15) : Affine K11 :=
  [Affine.identity, ⟨3, 2, false⟩, ⟨10, 4, false⟩, ⟨1, 8, false⟩, ⟨5, 4, false⟩, ⟨4, 8, false⟩, ⟨7, 7, false⟩, ⟨6, 8, false⟩, ⟨6, 3, false⟩,
    ⟨7, 4, false⟩, ⟨4, 3, false⟩, ⟨5, 7, false⟩, ⟨1, 3, false⟩, ⟨10, 7, false⟩, ⟨3, 9, false⟩].getD z.val Affine.identity

theorem mult11_proper (z : ZMod 15) : curve11.proper (mult11 z) = true := by revert z; decide

theorem mult11_bij : Function.Bijective fun z => (⟨mult11 z, mult11_proper z⟩ : {P : Affine K11 // curve11.proper P = true}) := by
  constructor
  · intro z z' h
    have h : mult11 z = mult11 z' := congrArg Subtype.val h
    revert z z'
    decide
  · rintro ⟨⟨x, y, i⟩, h⟩
    rcases SWCurve.proper_cases _ h with h' | ⟨h', hy⟩
    · exact ⟨0, Subtype.ext h'.symm⟩
    · simp only at h'
      subst h'
      have : ∀ x y : K11, y * y = curve11.rhs x → ∃ z, mult11 z = ⟨x, y, false⟩ := by decide
      obtain ⟨z, hz⟩ := this x y hy
      exact ⟨z, Subtype.ext hz⟩

noncomputable def pts11 := Equiv.ofBijective _ mult11_bij

/-- Multiplication by the cofactor 3. -/
def cof11 : ZMod 15 →+ ZMod 5 := (AddMonoidHom.mulLeft 3).comp (ZMod.castHom (by decide : 5 ∣ 15) (ZMod 5)).toAddMonoidHom

noncomputable def clear11 (P : Affine K11) : ZMod 5 :=
  if h : curve11.proper P = true then cof11 (pts11.symm ⟨P, h⟩) else 0

theorem clear11_pts (z : ZMod 15) : clear11 (pts11 z).1 = cof11 z := by
  unfold clear11
  rw [dif_pos (pts11 z).2]
  simp

theorem cof11_surj : Function.Surjective cof11 := by decide

theorem card_ker11 : Nat.card cof11.ker = 3 := by
  have h := AddSubgroup.card_eq_card_quotient_mul_card_addSubgroup cof11.ker
  rw [Nat.card_congr (QuotientAddGroup.quotientKerEquivOfSurjective cof11 cof11_surj).toEquiv, Nat.card_zmod, Nat.card_zmod] at h
  omega

example := C115_points curve11_lawful ⟨3, 2, false⟩
example : Nat.card {a : K11 × Bool // curve11.pointFromX a.1 a.2 = some ⟨3, 2, false⟩} = 1 := C115_points curve11_lawful ⟨3, 2, false⟩

/-- One attempt: zero in 2, the others in 3 of 22 cases; 8 give no point. -/
example (n : Nat) : (∃ k, (0 < n → 0 < k) ∧ ∀ g, curve11.count clear11 n (some g) = k * if g = 0 then 2 else 3) ∧
    curve11.count clear11 n none = 8 ^ n := by
  have h := C115_generator pts11 curve11_lawful curve11_noOrderTwo rfl cof11 cof11_surj clear11 clear11_pts n
  rw [card_ker11, Nat.card_zmod, Nat.card_zmod] at h
  exact h

example (n : Nat) := C115_generator_zero pts11 curve11_lawful curve11_noOrderTwo rfl cof11 cof11_surj clear11 clear11_pts n

end Ex

end GS
