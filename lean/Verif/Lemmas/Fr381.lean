import Mathlib.NumberTheory.LucasPrimality
import Mathlib.Tactic.NormNum.Prime

/-! # The order of the groups of BLS12-381 is prime -/

namespace GS

/-- `ark_bls12_381::Fr::MODULUS`. -/
def r381 : Nat := 0x73eda753299d7d483339d80809a1d80553bda402fffe5bfeffffffff00000001

theorem r381_factors : r381 - 1 =
    2 ^ 32 * 3 * 11 * 19 * 10177 * 125527 * 859267 * 906349 ^ 2 * 2508409 * 2529403 * 52437899 * 254760293 ^ 2 := by
  decide +kernel

theorem r381_pow (k m : Nat) (h : 7 ^ k % r381 = m % r381) : (7 : ZMod r381) ^ k = m := by
  have : ((7 ^ k : ℕ) : ZMod r381) = (m : ℕ) := (ZMod.natCast_eq_natCast_iff' _ _ _).mpr h
  push_cast at this
  exact this

theorem r381_pow_ne (k : Nat) (h : 7 ^ k % r381 ≠ 1) : (7 : ZMod r381) ^ k ≠ 1 := by
  intro h'
  apply h
  have : ((7 ^ k : ℕ) : ZMod r381) = (1 : ℕ) := by push_cast; exact h'
  rw [ZMod.natCast_eq_natCast_iff'] at this
  rw [this]; decide +kernel

/-- Powers by squaring. -/
def powMod (m : Nat) : Nat → Nat → Nat → Nat
  | 0, _, _ => 1 % m
  | f + 1, b, e => b ^ (e % 2) * powMod m f (b * b % m) (e / 2) % m

theorem powMod_eq (m f b e : Nat) (h : e < 2 ^ f) : powMod m f b e = b ^ e % m := by
  induction f generalizing b e with
  | zero =>
    have : e = 0 := by simpa using h
    simp [powMod, this]
  | succ f ih =>
    rw [powMod, ih _ _ (by rw [Nat.pow_succ] at h; omega)]
    have : b ^ e = b ^ (e % 2) * (b * b) ^ (e / 2) := by
      rw [← pow_two, ← pow_mul, ← pow_add]; congr 1; omega
    rw [this, Nat.mul_mod, Nat.pow_mod (b * b % m), Nat.mod_mod, Nat.mod_mod, ← Nat.pow_mod, ← Nat.mul_mod]

theorem r381_prime : r381.Prime := by
  refine lucas_primality r381 7 ?_ ?_
  · have := r381_pow (r381 - 1) 1 (by rw [← powMod_eq _ 255 _ _ (by decide +kernel)]; decide +kernel)
    exact_mod_cast this
  · intro q hq hd
    have hq' : ∀ {p : Nat}, p.Prime → q ∣ p → q = p := fun hp h => (Nat.prime_dvd_prime_iff_eq hq hp).mp h
    rw [r381_factors] at hd
    simp only [hq.dvd_mul] at hd
    apply r381_pow_ne
    rw [← powMod_eq _ 255 _ _ (lt_of_le_of_lt (Nat.div_le_self _ _) (by decide +kernel))]
    obtain ((((((((((h | h) | h) | h) | h) | h) | h) | h) | h) | h) | h) | h := hd
    · rw [hq' Nat.prime_two (hq.dvd_of_dvd_pow h)]; decide +kernel
    · rw [hq' Nat.prime_three h]; decide +kernel
    · rw [hq' (by norm_num) h]; decide +kernel
    · rw [hq' (by norm_num) h]; decide +kernel
    · rw [hq' (by norm_num) h]; decide +kernel
    · rw [hq' (by norm_num) h]; decide +kernel
    · rw [hq' (by norm_num) h]; decide +kernel
    · rw [hq' (by norm_num) (hq.dvd_of_dvd_pow h)]; decide +kernel
    · rw [hq' (by norm_num) h]; decide +kernel
    · rw [hq' (by norm_num) h]; decide +kernel
    · rw [hq' (by norm_num) h]; decide +kernel
    · rw [hq' (by norm_num) (hq.dvd_of_dvd_pow h)]; decide +kernel

end GS
