import Verif.Spec.Sample
import Verif.Lemmas.Bls
import Mathlib.Data.Nat.Bitwise
import Mathlib.SetTheory.Cardinal.Finite
import Mathlib.Logic.Equiv.Fin.Basic
import Mathlib.Data.ZMod.Units
import Mathlib.Algebra.Field.ZMod
import Mathlib.Algebra.BigOperators.Fin
import Mathlib.Data.Fintype.BigOperators
import Mathlib.Data.Real.Basic
import Mathlib.Tactic.Linarith
import Mathlib.Tactic.FieldSimp
import Mathlib.Tactic.Positivity

open scoped BigOperators

namespace GS
variable {σ : Type} {b : Nat}

theorem stateAt_succ (word : σ → Fin (2 ^ b) × σ) (s : σ) (i : Nat) : stateAt word (word s).2 i = stateAt word s (i + 1) := by
  induction i with
  | zero => rfl
  | succ i ih => rw [stateAt, ih]; rfl

theorem stateAt_add (word : σ → Fin (2 ^ b) × σ) (s : σ) (i j : Nat) : stateAt word (stateAt word s i) j = stateAt word s (i + j) := by
  induction j with
  | zero => rfl
  | succ j ih => rw [stateAt, ih, ← Nat.add_assoc, stateAt]

theorem wordAt_add (word : σ → Fin (2 ^ b) × σ) (s : σ) (i j : Nat) : wordAt word (stateAt word s i) j = wordAt word s (i + j) := by
  rw [wordAt, stateAt_add, wordAt]

theorem takeWords_eq (word : σ → Fin (2 ^ b) × σ) (n : Nat) (s : σ) :
    takeWords word n s = ((List.range n).map (wordAt word s), stateAt word s n) := by
  induction n generalizing s with
  | zero => rfl
  | succ n ih =>
    simp only [takeWords, ih, List.range_succ_eq_map, List.map_cons, List.map_map, stateAt_succ]
    refine Prod.ext ?_ rfl
    show _ :: _ = _ :: _
    congr 1
    refine List.map_congr_left fun i _ => ?_
    rw [wordAt, stateAt_succ]; rfl

theorem limbsNat_append (b : Nat) (l l' : List Nat) : limbsNat b (l ++ l') = limbsNat b l + 2 ^ (b * l.length) * limbsNat b l' := by
  induction l with
  | nil => simp [limbsNat]
  | cons w l ih =>
    rw [List.cons_append, limbsNat, ih, limbsNat, List.length_cons, Nat.mul_succ, Nat.pow_add]
    ring

theorem limbsNat_range (b n : Nat) (f : Nat → Nat) : limbsNat b ((List.range n).map f) = ∑ i ∈ Finset.range n, f i * 2 ^ (b * i) := by
  induction n with
  | zero => rfl
  | succ n ih =>
    rw [List.range_succ, List.map_append, limbsNat_append, ih, Finset.sum_range_succ]
    simp [limbsNat, mul_comm]

theorem limbsNat_lt (b : Nat) (l : List Nat) (h : ∀ w ∈ l, w < 2 ^ b) : limbsNat b l < 2 ^ (b * l.length) := by
  induction l with
  | nil => simp [limbsNat]
  | cons w l ih =>
    have h1 := h w (by simp)
    have h2 := ih fun v hv => h v (by simp [hv])
    rw [limbsNat, List.length_cons, Nat.mul_succ, Nat.pow_add]
    calc w + 2 ^ b * limbsNat b l < 2 ^ b + 2 ^ b * limbsNat b l := by omega
      _ = 2 ^ b * (limbsNat b l + 1) := by ring
      _ ≤ 2 ^ b * 2 ^ (b * l.length) := Nat.mul_le_mul_left _ h2
      _ = _ := by ring

theorem maskLast_append (m : Nat) (l : List Nat) (w : Nat) : maskLast m (l ++ [w]) = l ++ [w &&& m] := by
  induction l with
  | nil => rfl
  | cons v l ih =>
    cases l with
    | nil => rfl
    | cons u l =>
      simp only [List.cons_append] at ih ⊢
      rw [maskLast, ih]

theorem FpConfig.mask_eq {c : FpConfig} (hc : c.Lawful) : c.mask = 2 ^ (c.wordBits - c.shave) - 1 := by
  have hs : c.shave ≤ c.wordBits := by have := hc.enough; unfold FpConfig.shave; omega
  unfold FpConfig.mask
  split
  · next h => simp [h]
  · rw [Nat.shiftRight_eq_div_pow]
    have h1 : 2 ^ c.wordBits = 2 ^ c.shave * 2 ^ (c.wordBits - c.shave) := by rw [← Nat.pow_add]; congr 1; omega
    have hp := Nat.two_pow_pos c.shave
    have hq := Nat.two_pow_pos (c.wordBits - c.shave)
    rw [h1]
    rw [Nat.div_eq_iff hp]
    have h2 : 2 ^ c.shave * 2 ^ (c.wordBits - c.shave) = 2 ^ c.shave * (2 ^ (c.wordBits - c.shave) - 1) + 2 ^ c.shave := by
      rw [← Nat.mul_succ]; congr 1; omega
    rw [h2]
    constructor
    · rw [Nat.mul_comm]; omega
    · rw [Nat.mul_comm]

theorem FpConfig.masked {c : FpConfig} (hc : c.Lawful) (l : List Nat) (hl : l.length = c.limbs) (h : ∀ w ∈ l, w < 2 ^ c.wordBits) :
    limbsNat c.wordBits (maskLast c.mask l) = limbsNat c.wordBits l % 2 ^ c.bits := by
  obtain ⟨i, w, rfl⟩ : ∃ i w, l = i ++ [w] := by
    have : l ≠ [] := by rintro rfl; have := hc.limbs_pos; simp at hl; omega
    exact ⟨l.dropLast, l.getLast this, (List.dropLast_append_getLast this).symm⟩
  rw [maskLast_append, limbsNat_append, limbsNat_append, FpConfig.mask_eq hc]
  have hi : limbsNat c.wordBits i < 2 ^ (c.wordBits * i.length) := limbsNat_lt _ _ fun v hv => h v (by simp [hv])
  simp only [limbsNat, Nat.mul_zero, Nat.add_zero]
  rw [Nat.and_two_pow_sub_one_eq_mod]
  have hb : c.bits = c.wordBits * i.length + (c.wordBits - c.shave) := by
    have h1 := hc.fits
    have h2 := hc.enough
    simp only [List.length_append, List.length_cons, List.length_nil, Nat.zero_add] at hl
    unfold FpConfig.shave
    rw [← hl, Nat.mul_succ] at h1 h2 ⊢
    omega
  rw [hb, Nat.pow_add, Nat.mod_mul, Nat.add_mul_mod_self_left, Nat.mod_eq_of_lt hi, Nat.add_mul_div_left _ _ (Nat.two_pow_pos _),
    Nat.div_eq_of_lt hi, Nat.zero_add]

theorem FpConfig.attempt_shift (c : FpConfig) (word : σ → Fin (2 ^ c.wordBits) × σ) (s : σ) (k : Nat) :
    c.attempt word (stateAt word s c.limbs) k = c.attempt word s (k + 1) := by
  unfold FpConfig.attempt
  congr 1
  refine Finset.sum_congr rfl fun i _ => ?_
  rw [wordAt_add]; congr 2; ring

theorem FpConfig.rand_succ {c : FpConfig} (hc : c.Lawful) (word : σ → Fin (2 ^ c.wordBits) × σ) (n : Nat) (s : σ) :
    c.rand word (n + 1) s = if c.attempt word s 0 < c.modulus then some (c.fromMont (c.attempt word s 0), stateAt word s c.limbs)
      else c.rand word n (stateAt word s c.limbs) := by
  have h : limbsNat c.wordBits (maskLast c.mask ((List.range c.limbs).map (wordAt word s))) = c.attempt word s 0 := by
    rw [FpConfig.masked hc _ (by simp) (by
      intro w hw
      obtain ⟨i, -, rfl⟩ := List.mem_map.mp hw
      exact Fin.isLt _), limbsNat_range]
    simp [FpConfig.attempt]
  rw [FpConfig.rand, takeWords_eq]
  simp only [h]

theorem FpConfig.rand_iff {c : FpConfig} (hc : c.Lawful) (word : σ → Fin (2 ^ c.wordBits) × σ) (n : Nat) (s : σ) (x : ZMod c.modulus) (s' : σ) :
    c.rand word n s = some (x, s') ↔ ∃ k < n, (∀ j < k, c.modulus ≤ c.attempt word s j) ∧ c.attempt word s k < c.modulus ∧
      x = c.fromMont (c.attempt word s k) ∧ s' = stateAt word s ((k + 1) * c.limbs) := by
  induction n generalizing s with
  | zero => simp [FpConfig.rand]
  | succ n ih =>
    rw [FpConfig.rand_succ hc]
    split
    · next h =>
      simp only [Option.some.injEq, Prod.mk.injEq]
      constructor
      · rintro ⟨rfl, rfl⟩
        exact ⟨0, by omega, by simp, h, rfl, by simp⟩
      · rintro ⟨k, -, hk, -, rfl, rfl⟩
        cases k with
        | zero => simp
        | succ k => have := hk 0 (by omega); omega
    · next h =>
      rw [ih]
      constructor
      · rintro ⟨k, hk, hj, hlt, rfl, rfl⟩
        refine ⟨k + 1, by omega, ?_, by rwa [← FpConfig.attempt_shift], by rw [FpConfig.attempt_shift], ?_⟩
        · intro j hj'
          cases j with
          | zero => omega
          | succ j => rw [← FpConfig.attempt_shift]; exact hj j (by omega)
        · rw [stateAt_add]; congr 1; ring
      · rintro ⟨k, hk, hj, hlt, rfl, rfl⟩
        cases k with
        | zero => exact absurd hlt h
        | succ k =>
          refine ⟨k, by omega, fun j hj' => by rw [FpConfig.attempt_shift]; exact hj _ (by omega), by rwa [FpConfig.attempt_shift],
            by rw [FpConfig.attempt_shift], ?_⟩
          rw [stateAt_add]; congr 1; ring

theorem FpConfig.fromMont_iff {c : FpConfig} (hc : c.Lawful) [Fact c.modulus.Prime] (v : Nat) (x : ZMod c.modulus) :
    x = c.fromMont v ↔ x * 2 ^ (c.wordBits * c.limbs) = v := by
  have h2 : (2 : ZMod c.modulus) ≠ 0 := by
    intro h
    have : ((2 : ℕ) : ZMod c.modulus) = 0 := by exact_mod_cast h
    rw [ZMod.natCast_eq_zero_iff] at this
    have hp := (Fact.out : c.modulus.Prime)
    have hm : c.modulus = 2 := (Nat.prime_dvd_prime_iff_eq hp Nat.prime_two).mp this
    have ho := hc.odd
    rw [hm] at ho
    exact absurd ho (by decide)
  have h := pow_ne_zero (c.wordBits * c.limbs) h2
  unfold FpConfig.fromMont
  rw [← div_eq_mul_inv, eq_div_iff h]

/-! ### Repeated attempts -/

section firsts
variable {A X : Type}

/-- The first `M` successes among `n` attempts. -/
def firsts (f : A → Option X) : Nat → (n : Nat) → (Fin n → A) → Option (List X)
  | 0, _, _ => some []
  | _ + 1, 0, _ => none
  | M + 1, n + 1, w => match f (w 0) with
    | some x => (firsts f M n (Fin.tail w)).map (x :: ·)
    | none => firsts f (M + 1) n (Fin.tail w)

/-- How often they are `v`. -/
noncomputable def cnt (f : A → Option X) (M n : Nat) (v : Option (List X)) : Nat := Nat.card {w : Fin n → A // firsts f M n w = v}

theorem card_cons [Fintype A] (n : Nat) (P : (Fin (n + 1) → A) → Prop) :
    Nat.card {w // P w} = ∑ a, Nat.card {w : Fin n → A // P (Fin.cons a w : Fin (n + 1) → A)} := by
  classical
  rw [← Nat.card_sigma]
  refine Nat.card_congr ⟨fun w => ⟨w.1 0, Fin.tail w.1, by rw [Fin.cons_self_tail]; exact w.2⟩, fun w => ⟨Fin.cons w.1 w.2.1, w.2.2⟩, ?_, ?_⟩
  · rintro ⟨w, h⟩; simp
  · rintro ⟨a, w, h⟩; rfl

variable (f : A → Option X)

theorem firsts_cons (M n : Nat) (a : A) (w : Fin n → A) : firsts f (M + 1) (n + 1) (Fin.cons a w : Fin (n + 1) → A) =
    match f a with
    | some x => (firsts f M n w).map (x :: ·)
    | none => firsts f (M + 1) n w := by
  simp [firsts]

theorem sum_card [Fintype A] (P Q : A → Prop) (hPQ : ∀ a, P a → ¬ Q a) (g : A → Nat) (R S : Nat) (hP : ∀ a, P a → g a = R) (hQ : ∀ a, Q a → g a = S)
    (h0 : ∀ a, ¬ P a → ¬ Q a → g a = 0) : ∑ a, g a = Nat.card {a // P a} * R + Nat.card {a // Q a} * S := by
  classical
  have : ∀ a, g a = (if P a then R else 0) + if Q a then S else 0 := by
    intro a
    by_cases h1 : P a
    · simp [h1, hPQ a h1, hP a h1]
    · by_cases h2 : Q a
      · simp [h1, h2, hQ a h2]
      · simp [h1, h2, h0 a h1 h2]
  simp only [this, Finset.sum_add_distrib, ← Finset.sum_filter, Finset.sum_const, smul_eq_mul, Nat.card_eq_fintype_card, Fintype.card_subtype]

theorem cnt_succ_some [Fintype A] (M n : Nat) (y : X) (l : List X) : cnt f (M + 1) (n + 1) (some (y :: l)) =
    Nat.card {a // f a = none} * cnt f (M + 1) n (some (y :: l)) + Nat.card {a // f a = some y} * cnt f M n (some l) := by
  unfold cnt
  rw [card_cons]
  refine sum_card (fun a => f a = none) (fun a => f a = some y) (fun a h => by simp [h]) _ _ _ ?_ ?_ ?_
  · intro a h; simp only [firsts_cons, h]
  · intro a h
    simp only [firsts_cons, h, Option.map_eq_some_iff, List.cons.injEq, true_and, exists_eq_right]
  · intro a h h'
    rcases hx : f a with _ | x
    · exact absurd hx h
    · have hxy : x ≠ y := fun h => h' (by rw [hx, h])
      simp [firsts_cons, hx, hxy]

theorem cnt_succ_none [Fintype A] (M n : Nat) : cnt f (M + 1) (n + 1) none =
    Nat.card {a // f a = none} * cnt f (M + 1) n none + Nat.card {a // f a ≠ none} * cnt f M n none := by
  unfold cnt
  rw [card_cons]
  refine sum_card (fun a => f a = none) (fun a => f a ≠ none) (fun a h => by simp [h]) _ _ _ ?_ ?_ ?_
  · intro a h; simp only [firsts_cons, h]
  · intro a h
    rcases hx : f a with _ | x
    · exact absurd hx h
    · simp only [firsts_cons, hx, Option.map_eq_none_iff]
  · intro a h h'; exact absurd h h'

theorem cnt_zero_none (n : Nat) : cnt f 0 n none = 0 := by
  unfold cnt
  have : IsEmpty {w : Fin n → A // firsts f 0 n w = none} := ⟨fun w => by have := w.2; simp [firsts] at this⟩
  simp

theorem cnt_none_zero (M : Nat) : cnt f (M + 1) 0 none = 1 := by
  unfold cnt
  rw [Nat.card_eq_one_iff_unique]
  exact ⟨⟨fun a b => Subtype.ext (Subsingleton.elim _ _)⟩, ⟨⟨Fin.elim0, rfl⟩⟩⟩

theorem cnt_fail [Fintype A] (n : Nat) : cnt f 1 n none = Nat.card {a // f a = none} ^ n := by
  induction n with
  | zero => simp [cnt_none_zero]
  | succ n ih => rw [cnt_succ_none, ih, cnt_zero_none]; ring

theorem cnt_uniform [Fintype A] (c : Nat) (hc : ∀ x, Nat.card {a // f a = some x} = c) (M n : Nat) (l l' : List X) (hl : l.length = M)
    (hl' : l'.length = M) : cnt f M n (some l) = cnt f M n (some l') := by
  induction n generalizing M l l' with
  | zero =>
    cases M with
    | zero => rw [List.length_eq_zero_iff.mp hl, List.length_eq_zero_iff.mp hl']
    | succ M => simp [cnt, firsts]
  | succ n ih =>
    cases M with
    | zero => rw [List.length_eq_zero_iff.mp hl, List.length_eq_zero_iff.mp hl']
    | succ M =>
      cases l with
      | nil => simp at hl
      | cons y l =>
        cases l' with
        | nil => simp at hl'
        | cons y' l' =>
          rw [cnt_succ_some, cnt_succ_some, hc, hc, ih (M + 1) (y :: l) (y' :: l') hl hl', ih M l l' (by simpa using hl) (by simpa using hl')]

theorem firsts_length (M n : Nat) (w : Fin n → A) (l : List X) (h : firsts f M n w = some l) : l.length = M := by
  induction n generalizing M l with
  | zero =>
    cases M with
    | zero => simp [firsts] at h; simp [← h]
    | succ M => simp [firsts] at h
  | succ n ih =>
    cases M with
    | zero => simp [firsts] at h; simp [← h]
    | succ M =>
      rw [firsts] at h
      split at h
      · rw [Option.map_eq_some_iff] at h
        obtain ⟨l', h', rfl⟩ := h
        simp [ih _ _ _ h']
      · exact ih _ _ _ h

/-- One result is as often the first as a single attempt has it, up to a factor for all of them. -/
theorem cnt_one [Fintype A] (n : Nat) : ∃ k, (0 < n → Nonempty A → 0 < k) ∧ ∀ x, cnt f 1 n (some [x]) = k * Nat.card {a // f a = some x} := by
  induction n with
  | zero => exact ⟨0, by simp, fun x => by simp [cnt, firsts]⟩
  | succ n ih =>
    obtain ⟨k, -, hk⟩ := ih
    refine ⟨Nat.card {a // f a = none} * k + cnt f 0 n (some []), fun _ hA => ?_, fun x => ?_⟩
    · have : 0 < cnt f 0 n (some []) := by
        unfold cnt
        obtain ⟨a⟩ := hA
        have : Nonempty {w : Fin n → A // firsts f 0 n w = some []} := ⟨⟨fun _ => a, by simp [firsts]⟩⟩
        exact Nat.card_pos
      omega
    · rw [cnt_succ_some, hk]; ring

/-! The share of the choices with too few successes. -/

/-- See above. -/
noncomputable def share (M n : Nat) : ℝ := cnt f M n none / (Nat.card A : ℝ) ^ n

variable [Fintype A]

theorem card_split : (Nat.card A : ℝ) = Nat.card {a // f a = none} + Nat.card {a // f a ≠ none} := by
  classical
  have h := Fintype.card_subtype_compl (fun a => f a = none)
  have h' := Fintype.card_subtype_le (fun a => f a = none)
  simp only [Nat.card_eq_fintype_card]
  have : Fintype.card A = Fintype.card {a // f a = none} + Fintype.card {a // f a ≠ none} := by
    have e : Fintype.card {a // f a ≠ none} = Fintype.card {a // ¬ f a = none} := rfl
    rw [e, h]; omega
  exact_mod_cast this

variable [Nonempty A]

theorem share_succ (M n : Nat) : share f (M + 1) (n + 1) =
    (Nat.card {a // f a = none} : ℝ) / Nat.card A * share f (M + 1) n + (1 - (Nat.card {a // f a = none} : ℝ) / Nat.card A) * share f M n := by
  have hA : (Nat.card A : ℝ) ≠ 0 := by
    have : 0 < Nat.card A := Nat.card_pos
    positivity
  unfold share
  rw [cnt_succ_none]
  have h := card_split f
  have h' : 1 - (Nat.card {a // f a = none} : ℝ) / Nat.card A = Nat.card {a // f a ≠ none} / Nat.card A := by
    rw [eq_div_iff hA, sub_mul, one_mul, div_mul_cancel₀ _ hA, h]; ring
  rw [h']
  push_cast
  rw [pow_succ]
  field_simp

theorem share_zero (n : Nat) : share f 0 n = 0 := by simp [share, cnt_zero_none]

theorem rej_le : (Nat.card {a // f a = none} : ℝ) / Nat.card A ≤ 1 := by
  have hA : (0 : ℝ) < Nat.card A := by have : 0 < Nat.card A := Nat.card_pos; positivity
  rw [div_le_one hA, card_split f]
  have : (0 : ℝ) ≤ Nat.card {a // f a ≠ none} := by positivity
  linarith

theorem share_mono_M (M n : Nat) : share f M n ≤ share f (M + 1) n := by
  induction n generalizing M with
  | zero =>
    cases M with
    | zero => rw [share_zero]; unfold share; positivity
    | succ M => simp [share, cnt_none_zero]
  | succ n ih =>
    cases M with
    | zero => rw [share_zero]; unfold share; positivity
    | succ M =>
      rw [share_succ, share_succ]
      have h0 : (0 : ℝ) ≤ (Nat.card {a // f a = none} : ℝ) / Nat.card A := by positivity
      have h1 := rej_le f
      exact add_le_add (mul_le_mul_of_nonneg_left (ih _) h0) (mul_le_mul_of_nonneg_left (ih _) (by linarith))

theorem share_mono_n (M n : Nat) : share f M (n + 1) ≤ share f M n := by
  cases M with
  | zero => simp [share_zero]
  | succ M =>
    rw [share_succ]
    have h1 := rej_le f
    have h2 := share_mono_M f M n
    nlinarith

theorem share_mono_add (M n k : Nat) : share f M (n + k) ≤ share f M n := by
  induction k with
  | zero => exact le_refl _
  | succ k ih => exact (share_mono_n f M (n + k)).trans ih

theorem share_step (M n k : Nat) : share f (M + 1) (n + k) ≤ share f M n + ((Nat.card {a // f a = none} : ℝ) / Nat.card A) ^ k := by
  induction k with
  | zero =>
    have h : share f (M + 1) n ≤ 1 := by
      have h := share_mono_add f (M + 1) 0 n
      rw [Nat.zero_add] at h
      refine h.trans ?_
      simp [share, cnt_none_zero]
    have h' : 0 ≤ share f M n := by unfold share; positivity
    simp only [Nat.add_zero, pow_zero]
    linarith
  | succ k ih =>
    rw [← Nat.add_assoc, share_succ]
    have h0 : (0 : ℝ) ≤ (Nat.card {a // f a = none} : ℝ) / Nat.card A := by positivity
    have h1 := rej_le f
    have h2 := share_mono_add f M n k
    rw [pow_succ]
    nlinarith [mul_le_mul_of_nonneg_left ih h0, mul_le_mul_of_nonneg_left h2 (sub_nonneg.mpr h1)]

theorem share_le (M k : Nat) : share f M (M * k) ≤ M * ((Nat.card {a // f a = none} : ℝ) / Nat.card A) ^ k := by
  induction M with
  | zero => simp [share_zero]
  | succ M ih =>
    rw [Nat.succ_mul]
    refine (share_step f M (M * k) k).trans ?_
    push_cast
    linarith

end firsts

/-! ### Scalars -/

/-- One attempt. -/
def FpConfig.try (c : FpConfig) (a : Fin c.limbs → Fin (2 ^ c.wordBits)) : Option (ZMod c.modulus) :=
  let v := (∑ i, (a i).val * 2 ^ (c.wordBits * i.val)) % 2 ^ c.bits
  if v < c.modulus then some (c.fromMont v) else none

theorem stateAt_list (s : List (Fin (2 ^ b))) (i : Nat) : stateAt listWord s i = s.drop i := by
  induction i with
  | zero => rfl
  | succ i ih => rw [stateAt, ih]; simp [listWord]

theorem wordAt_list (a : Fin n → Fin (2 ^ b)) (s : List (Fin (2 ^ b))) (i : Fin n) : wordAt listWord (List.ofFn a ++ s) i = (a i).val := by
  rw [wordAt, stateAt_list]
  have : (List.ofFn a ++ s).drop i = a i :: (List.ofFn a ++ s).drop (i + 1) := by
    rw [List.drop_eq_getElem_cons (by simp; omega)]
    congr 1
    rw [List.getElem_append_left (by simp)]
    simp
  rw [this]; rfl

theorem FpConfig.attempt_list (c : FpConfig) (a : Fin c.limbs → Fin (2 ^ c.wordBits)) (s : List (Fin (2 ^ c.wordBits))) :
    c.attempt listWord (List.ofFn a ++ s) 0 = (∑ i, (a i).val * 2 ^ (c.wordBits * i.val)) % 2 ^ c.bits := by
  unfold FpConfig.attempt
  rw [Finset.sum_range]
  congr 1
  refine Finset.sum_congr rfl fun i _ => ?_
  rw [Nat.zero_mul, Nat.zero_add, wordAt_list]

theorem FpConfig.rands_list {c : FpConfig} (hc : c.Lawful) (M n : Nat) (w : Fin n → Fin c.limbs → Fin (2 ^ c.wordBits)) (s : List (Fin (2 ^ c.wordBits))) :
    (c.rands listWord M n ((List.ofFn fun i => List.ofFn (w i)).flatten ++ s)).map Prod.fst = firsts c.try M n w := by
  induction n generalizing M with
  | zero => cases M <;> simp [FpConfig.rands, firsts]
  | succ n ih =>
    cases M with
    | zero => simp [FpConfig.rands, firsts]
    | succ M =>
      rw [List.ofFn_succ, List.flatten_cons, List.append_assoc, FpConfig.rands, FpConfig.rand_succ hc, FpConfig.attempt_list, stateAt_list]
      have hd : ∀ t : List (Fin (2 ^ c.wordBits)), (List.ofFn (w 0) ++ t).drop c.limbs = t := fun t => by
        rw [List.drop_append_of_le_length (by simp), List.drop_eq_nil_of_le (by simp), List.nil_append]
      rw [hd, firsts, FpConfig.try]
      simp only [FpConfig.rand]
      split_ifs with h
      · simp only [Option.map_map]
        have := ih M (Fin.tail w)
        simp only [Fin.tail] at this
        simp only [Fin.tail, ← this, Option.map_map]
        rfl
      · exact ih (M + 1) (Fin.tail w)

/-- The words of `n` attempts, one attempt after the other. -/
def wordsEquiv (n N : Nat) (W : Type) : (Fin (n * N) → W) ≃ (Fin n → Fin N → W) :=
  (Equiv.arrowCongr finProdFinEquiv.symm (Equiv.refl W)).trans (Equiv.curry _ _ _)

theorem ofFn_words (n N : Nat) {W : Type} (w : Fin (n * N) → W) :
    List.ofFn w = (List.ofFn fun i => List.ofFn (wordsEquiv n N W w i)).flatten := by
  rw [List.ofFn_mul]
  congr 2
  funext i
  congr 1
  funext j
  simp only [wordsEquiv, Equiv.trans_apply, Equiv.curry_apply, Equiv.arrowCongr_apply, Equiv.symm_symm, Function.comp, Equiv.refl_apply, Function.curry]
  congr 1
  ext
  simp [finProdFinEquiv, Nat.mul_comm, Nat.add_comm]

theorem FpConfig.count_eq {c : FpConfig} (hc : c.Lawful) (M n : Nat) (v : Option (List (ZMod c.modulus))) : c.count M n v = cnt c.try M n v := by
  unfold FpConfig.count cnt
  refine Nat.card_congr ((wordsEquiv n c.limbs _).subtypeEquiv fun w => ?_)
  rw [ofFn_words, ← FpConfig.rands_list hc M n _ [], List.append_nil]

/-- The words of one attempt as the bits that are masked away and the number that is looked at. -/
theorem FpConfig.split {c : FpConfig} (hc : c.Lawful) : ∃ q : (Fin c.limbs → Fin (2 ^ c.wordBits)) ≃ Fin (2 ^ c.shave) × Fin (2 ^ c.bits),
    ∀ a, (q a).2.val = (∑ i, (a i).val * 2 ^ (c.wordBits * i.val)) % 2 ^ c.bits := by
  have h : (2 ^ c.wordBits) ^ c.limbs = 2 ^ c.shave * 2 ^ c.bits := by
    rw [← Nat.pow_mul, ← Nat.pow_add]
    congr 1
    have := hc.fits
    unfold FpConfig.shave
    omega
  refine ⟨(finFunctionFinEquiv.trans (finCongr h)).trans finProdFinEquiv.symm, fun a => ?_⟩
  simp only [Equiv.trans_apply, finProdFinEquiv, Equiv.coe_fn_symm_mk, Fin.modNat, finCongr_apply, Fin.val_cast]
  congr 1
  rw [finFunctionFinEquiv_apply]
  exact Finset.sum_congr rfl fun i _ => by rw [Nat.pow_mul]

theorem FpConfig.card_some {c : FpConfig} (hc : c.Lawful) [Fact c.modulus.Prime] (x : ZMod c.modulus) :
    Nat.card {a // c.try a = some x} = 2 ^ c.shave := by
  obtain ⟨q, hq⟩ := c.split hc
  have hlt : (x * 2 ^ (c.wordBits * c.limbs)).val < c.modulus := ZMod.val_lt _
  have e : {a // c.try a = some x} ≃ Fin (2 ^ c.shave) := by
    refine (q.subtypeEquiv (q := fun z => z.2.val = (x * 2 ^ (c.wordBits * c.limbs)).val) fun a => ?_).trans
      ⟨fun z => z.1.1, fun i => ⟨(i, ⟨(x * 2 ^ (c.wordBits * c.limbs)).val, hlt.trans hc.high⟩), rfl⟩, ?_, ?_⟩
    · simp only [FpConfig.try, ← hq]
      split_ifs with h
      · rw [Option.some.injEq, eq_comm, FpConfig.fromMont_iff hc]
        constructor
        · intro h'; rw [h', ZMod.val_natCast_of_lt h]
        · intro h'; rw [h', ZMod.natCast_zmod_val]
      · simp only [reduceCtorEq, false_iff]
        omega
    · rintro ⟨⟨i, t⟩, h⟩
      refine Subtype.ext (Prod.ext rfl (Fin.ext h.symm))
    · intro i; rfl
  rw [Nat.card_congr e, Nat.card_eq_fintype_card, Fintype.card_fin]

theorem FpConfig.card_none {c : FpConfig} (hc : c.Lawful) :
    Nat.card {a // c.try a = none} = 2 ^ c.shave * (2 ^ c.bits - c.modulus) := by
  obtain ⟨q, hq⟩ := c.split hc
  have e : {a // c.try a = none} ≃ Fin (2 ^ c.shave) × {t : Fin (2 ^ c.bits) // ¬ t.val < c.modulus} := by
    refine (q.subtypeEquiv (q := fun z => ¬ z.2.val < c.modulus) fun a => ?_).trans
      ⟨fun z => (z.1.1, ⟨z.1.2, z.2⟩), fun z => ⟨(z.1, z.2.1), z.2.2⟩, fun _ => rfl, fun _ => rfl⟩
    simp only [FpConfig.try, ← hq]
    split_ifs with h <;> simp [h]
  rw [Nat.card_congr e, Nat.card_prod, Nat.card_eq_fintype_card, Fintype.card_fin]
  congr 1
  rw [Nat.card_eq_fintype_card, Fintype.card_subtype_compl, Fintype.card_fin]
  congr 1
  have e' : {t : Fin (2 ^ c.bits) // t.val < c.modulus} ≃ Fin c.modulus :=
    ⟨fun t => ⟨t.1.val, t.2⟩, fun t => ⟨⟨t.val, t.2.trans hc.high⟩, t.2⟩, fun _ => rfl, fun _ => rfl⟩
  rw [Fintype.card_congr e', Fintype.card_fin]

/-! ### Several scalars -/

theorem FpConfig.rands_succ {c : FpConfig} (hc : c.Lawful) (word : σ → Fin (2 ^ c.wordBits) × σ) (M n : Nat) (s : σ) :
    c.rands word (M + 1) (n + 1) s = if c.attempt word s 0 < c.modulus then
        (c.rands word M n (stateAt word s c.limbs)).map fun r => (c.fromMont (c.attempt word s 0) :: r.1, r.2)
      else c.rands word (M + 1) n (stateAt word s c.limbs) := by
  rw [FpConfig.rands, FpConfig.rand_succ hc]
  simp only [FpConfig.rand]
  split_ifs <;> rfl

theorem FpConfig.rands_mono {c : FpConfig} (hc : c.Lawful) (word : σ → Fin (2 ^ c.wordBits) × σ) (M n k : Nat) (s : σ)
    (r : List (ZMod c.modulus) × σ) (h : c.rands word M n s = some r) : c.rands word M (n + k) s = some r := by
  induction n generalizing M s r with
  | zero =>
    cases M with
    | zero => simpa [FpConfig.rands] using h
    | succ M => simp [FpConfig.rands] at h
  | succ n ih =>
    cases M with
    | zero => simpa [FpConfig.rands] using h
    | succ M =>
      rw [Nat.succ_add, FpConfig.rands_succ hc]
      rw [FpConfig.rands_succ hc] at h
      split_ifs at h ⊢
      · rw [Option.map_eq_some_iff] at h ⊢
        obtain ⟨r', h', rfl⟩ := h
        exact ⟨r', ih _ _ _ h', rfl⟩
      · exact ih _ _ _ h

theorem FpConfig.rands_fun {c : FpConfig} (hc : c.Lawful) (word : σ → Fin (2 ^ c.wordBits) × σ) (M n n' : Nat) (s : σ)
    (r r' : List (ZMod c.modulus) × σ) (h : c.rands word M n s = some r) (h' : c.rands word M n' s = some r') : r = r' := by
  have h1 := FpConfig.rands_mono hc word M n n' s r h
  have h2 := FpConfig.rands_mono hc word M n' n s r' h'
  rw [Nat.add_comm, h1] at h2
  exact Option.some.inj h2

theorem FpConfig.rands_cons {c : FpConfig} (hc : c.Lawful) (word : σ → Fin (2 ^ c.wordBits) × σ) (M : Nat) (s s' : σ) (x : ZMod c.modulus)
    (l : List (ZMod c.modulus)) :
    (∃ n, c.rands word (M + 1) n s = some (x :: l, s')) ↔
      ∃ t, (∃ n, c.rand word n s = some (x, t)) ∧ ∃ n, c.rands word M n t = some (l, s') := by
  constructor
  · rintro ⟨n, h⟩
    induction n generalizing s with
    | zero => simp [FpConfig.rands] at h
    | succ n ih =>
      rw [FpConfig.rands_succ hc] at h
      split_ifs at h with hlt
      · rw [Option.map_eq_some_iff] at h
        obtain ⟨r, h, e⟩ := h
        simp only [Prod.mk.injEq, List.cons.injEq] at e
        obtain ⟨⟨rfl, rfl⟩, rfl⟩ := e
        exact ⟨_, ⟨1, by rw [FpConfig.rand_succ hc, if_pos hlt]⟩, n, h⟩
      · obtain ⟨t, ⟨m, hm⟩, h'⟩ := ih _ h
        exact ⟨t, ⟨m + 1, by rw [FpConfig.rand_succ hc, if_neg hlt, hm]⟩, h'⟩
  · rintro ⟨t, ⟨n, hn⟩, m, hm⟩
    refine ⟨n + m, ?_⟩
    induction n generalizing s with
    | zero => simp [FpConfig.rand] at hn
    | succ n ih =>
      rw [FpConfig.rand_succ hc] at hn
      rw [Nat.succ_add, FpConfig.rands_succ hc]
      split_ifs at hn ⊢ with hlt
      · simp only [Option.some.injEq, Prod.mk.injEq] at hn
        obtain ⟨rfl, rfl⟩ := hn
        rw [Nat.add_comm, FpConfig.rands_mono hc word M m n _ _ hm]
        rfl
      · exact ih _ hn

theorem FpConfig.attempt_congr (c : FpConfig) {σ' : Type} (word : σ → Fin (2 ^ c.wordBits) × σ) (word' : σ' → Fin (2 ^ c.wordBits) × σ') (s : σ) (s' : σ')
    (h : ∀ i, wordAt word s i = wordAt word' s' i) (k : Nat) : c.attempt word s k = c.attempt word' s' k := by
  simp only [FpConfig.attempt, h]

theorem FpConfig.rands_congr {c : FpConfig} (hc : c.Lawful) {σ' : Type} (word : σ → Fin (2 ^ c.wordBits) × σ) (word' : σ' → Fin (2 ^ c.wordBits) × σ')
    (M n : Nat) (s : σ) (s' : σ') (h : ∀ i, wordAt word s i = wordAt word' s' i) (l : List (ZMod c.modulus)) (t : σ)
    (hr : c.rands word M n s = some (l, t)) :
    ∃ j, M ≤ j ∧ t = stateAt word s (j * c.limbs) ∧ c.rands word' M n s' = some (l, stateAt word' s' (j * c.limbs)) := by
  induction n generalizing M s s' l with
  | zero =>
    cases M with
    | zero =>
      simp only [FpConfig.rands, Option.some.injEq, Prod.mk.injEq] at hr ⊢
      obtain ⟨rfl, rfl⟩ := hr
      exact ⟨0, le_refl _, by simp [stateAt], rfl, by simp [stateAt]⟩
    | succ M => simp [FpConfig.rands] at hr
  | succ n ih =>
    cases M with
    | zero =>
      simp only [FpConfig.rands, Option.some.injEq, Prod.mk.injEq] at hr ⊢
      obtain ⟨rfl, rfl⟩ := hr
      exact ⟨0, le_refl _, by simp [stateAt], rfl, by simp [stateAt]⟩
    | succ M =>
      have h' : ∀ i, wordAt word (stateAt word s c.limbs) i = wordAt word' (stateAt word' s' c.limbs) i := fun i => by
        rw [wordAt_add, wordAt_add, h]
      have hj : ∀ j, c.limbs + j * c.limbs = (j + 1) * c.limbs := fun j => by ring
      rw [FpConfig.rands_succ hc] at hr ⊢
      rw [← FpConfig.attempt_congr c word word' s s' h]
      split_ifs at hr ⊢ with hlt
      · rw [Option.map_eq_some_iff] at hr
        obtain ⟨⟨l', t'⟩, hr, e⟩ := hr
        simp only [Prod.mk.injEq] at e
        obtain ⟨rfl, rfl⟩ := e
        obtain ⟨j, hM, h1, h2⟩ := ih M _ _ h' _ hr
        refine ⟨j + 1, by omega, by rw [h1, stateAt_add, hj], ?_⟩
        rw [h2, stateAt_add, hj]; rfl
      · obtain ⟨j, hM, h1, h2⟩ := ih (M + 1) _ _ h' _ hr
        exact ⟨j + 1, by omega, by rw [h1, stateAt_add, hj], by rw [h2, stateAt_add, hj]⟩

theorem FpConfig.samples_draws {c : FpConfig} (hc : c.Lawful) {G1 G2 : Type} [Rng σ (ZMod c.modulus) G1 G2] (word : σ → Fin (2 ^ c.wordBits) × σ)
    (hs : c.Samples word G1 G2) (M : Nat) (s : σ) : ∃ n, c.rands word M n s = some (draws (F := ZMod c.modulus) G1 G2 M s) := by
  induction M generalizing s with
  | zero => exact ⟨0, rfl⟩
  | succ M ih =>
    exact (FpConfig.rands_cons hc word M s _ _ _).mpr ⟨_, hs s, ih _⟩

/-- Generators with the same words have the same scalars. -/
theorem FpConfig.draws_congr {c : FpConfig} (hc : c.Lawful) {σ' G1 G2 : Type} [Rng σ (ZMod c.modulus) G1 G2] [Rng σ' (ZMod c.modulus) G1 G2]
    (word : σ → Fin (2 ^ c.wordBits) × σ) (word' : σ' → Fin (2 ^ c.wordBits) × σ') (hs : c.Samples word G1 G2) (hs' : c.Samples word' G1 G2) (M : Nat)
    (s : σ) (s' : σ') (h : ∀ i, wordAt word s i = wordAt word' s' i) :
    ∃ j, M ≤ j ∧ (draws (F := ZMod c.modulus) G1 G2 M s).2 = stateAt word s (j * c.limbs) ∧
      draws (F := ZMod c.modulus) G1 G2 M s' = ((draws (F := ZMod c.modulus) G1 G2 M s).1, stateAt word' s' (j * c.limbs)) := by
  obtain ⟨n, hn⟩ := FpConfig.samples_draws hc word hs M s
  obtain ⟨n', hn'⟩ := FpConfig.samples_draws hc word' hs' M s'
  obtain ⟨j, hM, h1, h2⟩ := FpConfig.rands_congr hc word word' M n s s' h _ _ (show _ = some ((draws (F := ZMod c.modulus) G1 G2 M s).1, (draws (F := ZMod c.modulus) G1 G2 M s).2) from hn)
  exact ⟨j, hM, h1, FpConfig.rands_fun hc word' M _ _ s' _ _ hn' h2⟩

/-! ### Points -/

section points
variable {B G : Type} [Field B] [DecidableEq B] {E : SWCurve B}

theorem SWCurve.pointFromX_iff (hE : E.Lawful) (x : B) (g : Bool) (P : Affine B) :
    E.pointFromX x g = some P ↔ P.infinity = false ∧ P.x = x ∧ P.y * P.y = E.rhs x ∧ (g = !E.le P.y (-P.y) ∨ P.y = -P.y) := by
  rw [← ys_larger hE]
  unfold SWCurve.pointFromX
  obtain ⟨X, Y, i⟩ := P
  cases h : E.ysFromX x with
  | none => simp
  | some ys =>
    obtain ⟨y0, y1⟩ := ys
    simp only [Option.some.injEq, Affine.mk.injEq, Prod.mk.injEq]
    constructor
    · rintro ⟨rfl, rfl, rfl⟩
      exact ⟨rfl, rfl, _, _, ⟨rfl, rfl⟩, rfl⟩
    · rintro ⟨rfl, rfl, _, _, ⟨rfl, rfl⟩, rfl⟩
      exact ⟨rfl, rfl, rfl⟩

theorem SWCurve.rand_list (clear : Affine B → G) (n : Nat) (w : Fin n → B × Bool) (s : List (B × Bool)) :
    (E.rand listCoord listBit clear n (List.ofFn w ++ s)).map (fun r => [r.1]) = firsts (fun a : B × Bool => (E.pointFromX a.1 a.2).map clear) 1 n w := by
  induction n with
  | zero => rfl
  | succ n ih =>
    rw [List.ofFn_succ, List.cons_append, SWCurve.rand, firsts]
    simp only [listCoord, listBit, List.head?_cons, Option.map_some, Option.getD_some, List.tail_cons]
    cases h : E.pointFromX (w 0).1 (w 0).2 with
    | none => exact ih (Fin.tail w)
    | some P => simp [firsts]

theorem SWCurve.count_some (clear : Affine B → G) (n : Nat) (g : G) :
    E.count clear n (some g) = cnt (fun a : B × Bool => (E.pointFromX a.1 a.2).map clear) 1 n (some [g]) := by
  unfold SWCurve.count cnt
  refine Nat.card_congr (Equiv.subtypeEquivRight fun w => ?_)
  have h := E.rand_list clear n w []
  rw [List.append_nil] at h
  rw [← h]
  simp [Option.map_eq_some_iff]

theorem SWCurve.count_none (clear : Affine B → G) (n : Nat) :
    E.count clear n none = cnt (fun a : B × Bool => (E.pointFromX a.1 a.2).map clear) 1 n none := by
  unfold SWCurve.count cnt
  refine Nat.card_congr (Equiv.subtypeEquivRight fun w => ?_)
  have h := E.rand_list clear n w []
  rw [List.append_nil] at h
  rw [← h]
  simp [Option.map_eq_none_iff]

theorem SWCurve.proper_cases (P : Affine B) (h : E.proper P = true) : P = Affine.identity ∨ P.infinity = false ∧ P.y * P.y = E.rhs P.x := by
  simpa [SWCurve.proper, SWCurve.rhs] using h

/-- Coordinates and signs stand for the points other than the identity, one to one. -/
theorem SWCurve.card_clear (hE : E.Lawful) (h2 : E.NoOrderTwo) {A : Type} [Zero A] (pts : A ≃ {P : Affine B // E.proper P = true})
    (h0 : (pts 0).1 = Affine.identity) (clear : Affine B → G) (g : G) :
    Nat.card {a : B × Bool // (E.pointFromX a.1 a.2).map clear = some g} = Nat.card {z : A // z ≠ 0 ∧ clear (pts z).1 = g} := by
  symm
  have hfin : ∀ z : A, z ≠ 0 → (pts z).1.infinity = false ∧ (pts z).1.y * (pts z).1.y = E.rhs (pts z).1.x := by
    intro z hz
    rcases SWCurve.proper_cases _ (pts z).2 with h | h
    · exact absurd (pts.injective (Subtype.ext (h.trans h0.symm))) hz
    · exact h
  have hx : ∀ z : A, z ≠ 0 → E.pointFromX (pts z).1.x (!E.le (pts z).1.y (-(pts z).1.y)) = some (pts z).1 := by
    intro z hz
    exact (SWCurve.pointFromX_iff hE _ _ _).mpr ⟨(hfin z hz).1, rfl, (hfin z hz).2, .inl rfl⟩
  refine Nat.card_congr (Equiv.ofBijective (fun z => ⟨((pts z.1).1.x, !E.le (pts z.1).1.y (-(pts z.1).1.y)), ?_⟩) ⟨?_, ?_⟩)
  · rw [hx z.1 z.2.1, Option.map_some, z.2.2]
  · rintro ⟨z, hz⟩ ⟨z', hz'⟩ h
    simp only [Subtype.mk.injEq, Prod.mk.injEq] at h
    have h1 := hx z hz.1
    rw [h.1, h.2, hx z' hz'.1] at h1
    exact Subtype.ext (pts.injective (Subtype.ext (Option.some.inj h1).symm))
  · rintro ⟨⟨x, b⟩, h⟩
    obtain ⟨P, hp, rfl⟩ := Option.map_eq_some_iff.mp h
    obtain ⟨hi, rfl, hy, hb⟩ := (SWCurve.pointFromX_iff hE _ _ _).mp hp
    have hb : b = !E.le P.y (-P.y) := hb.resolve_right (h2 _ _ hy)
    have hP : E.proper P = true := by simp [SWCurve.proper, hi, hy, SWCurve.rhs]
    refine ⟨⟨pts.symm ⟨P, hP⟩, ?_, by simp⟩, ?_⟩
    · intro hz
      rw [Equiv.symm_apply_eq] at hz
      have := congrArg (fun Q => Q.1.infinity) hz
      simp [h0, hi, Affine.identity] at this
    · simp [hb]

theorem card_fiber {A : Type} [AddCommGroup A] [Finite A] [AddCommGroup G] (φ : A →+ G) (hφ : Function.Surjective φ) [DecidableEq G] (g : G) :
    Nat.card {z : A // z ≠ 0 ∧ φ z = g} = if g = 0 then Nat.card φ.ker - 1 else Nat.card φ.ker := by
  split_ifs with hg
  · subst hg
    have : Nat.card φ.ker = Nat.card {z : φ.ker // z ≠ 0} + 1 := by
      classical
      have := Fintype.ofFinite φ.ker
      rw [Nat.card_eq_fintype_card, Nat.card_eq_fintype_card, Fintype.card_subtype_compl, Fintype.card_subtype_eq]
      have : 0 < Fintype.card φ.ker := Fintype.card_pos
      omega
    rw [this, Nat.add_sub_cancel]
    exact Nat.card_congr ⟨fun z => ⟨⟨z.1, z.2.2⟩, fun h => z.2.1 (congrArg Subtype.val h)⟩, fun z => ⟨z.1.1, fun h => z.2 (Subtype.ext h), z.1.2⟩,
      fun _ => rfl, fun _ => rfl⟩
  · obtain ⟨z0, rfl⟩ := hφ g
    refine Nat.card_congr ⟨fun z => ⟨z.1 - z0, by rw [AddMonoidHom.mem_ker, map_sub, z.2.2, sub_self]⟩,
      fun z => ⟨z.1 + z0, fun h => hg ?_, by rw [map_add, AddMonoidHom.mem_ker.mp z.2, zero_add]⟩, ?_, ?_⟩
    · have := congrArg φ h
      rwa [map_add, AddMonoidHom.mem_ker.mp z.2, zero_add, map_zero] at this
    · rintro ⟨z, h⟩; simp
    · rintro ⟨z, h⟩; simp

end points

end GS
