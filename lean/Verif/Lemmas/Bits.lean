import Verif.Lemmas.Words
import Verif.Model.Bits

/-! # Bits of arrays of words -/

namespace GS.Tower
open Words

theorem bits_succ {n : Nat} (h : n ≠ 0) : n.bits = n.testBit 0 :: (n / 2).bits := by
  rw [Nat.testBit_zero]
  rcases Nat.even_or_odd' n with ⟨k, rfl | rfl⟩
  · rw [Nat.bit0_bits k (by omega)]; simp
  · rw [Nat.bit1_bits]
    have : (2 * k + 1) / 2 = k := by omega
    rw [this]; simp

theorem bits_true {n : Nat} (h : n ≠ 0) : true ∈ n.bits := by
  induction n using Nat.strong_induction_on with
  | _ n ih =>
    rw [bits_succ h]
    by_cases h2 : n / 2 = 0
    · have : n = 1 := by omega
      subst this; simp
    · exact List.mem_cons_of_mem _ (ih _ (by omega) h2)

/-- The bits of a number below `2 ^ k`, from the highest, without leading zeros. -/
theorem dropWhile_bits (k : Nat) : ∀ n < 2 ^ k, ((List.range k).reverse.map n.testBit).dropWhile (fun b => !b) = n.bits.reverse := by
  induction k with
  | zero => intro n hn; obtain rfl : n = 0 := by simpa using hn
            simp
  | succ k ih =>
    intro n hn
    have hl : (List.range (k + 1)).reverse.map n.testBit = (List.range k).reverse.map (n / 2).testBit ++ [n.testBit 0] := by
      rw [List.range_succ_eq_map, List.reverse_cons, List.map_append, ← List.map_reverse, List.map_map]
      congr 1
      refine List.map_congr_left fun i _ => ?_
      simp only [Function.comp, Nat.succ_eq_add_one, Nat.testBit_succ]
    have hk : n / 2 < 2 ^ k := by rw [pow_succ] at hn; omega
    rw [hl, List.dropWhile_append, ih _ hk]
    by_cases h0 : n = 0
    · subst h0; simp
    · by_cases h2 : n / 2 = 0
      · have : n = 1 := by omega
        subst this; simp
      · rw [if_neg, bits_succ h0, List.reverse_cons]
        intro he
        have := bits_true h2
        simp only [List.isEmpty_iff, List.reverse_eq_nil_iff] at he
        rw [he] at this
        simp at this

theorem testBit_val {n : Nat} : ∀ {a : List Nat}, IsWords n a → ∀ i, (a.getD (i / 64) 0).testBit (i - 64 * (i / 64)) = (val a).testBit i := by
  induction n with
  | zero => intro a h i; rw [isWords_zero h]; simp [val]
  | succ n ih =>
    intro a h i
    obtain ⟨x, xs, rfl, hx, hxs⟩ := isWords_succ h
    have hv : val (x :: xs) = 2 ^ 64 * val xs + x := by rw [val, B64]; ring
    rw [hv, Nat.testBit_two_pow_mul_add _ (by rw [B64] at hx; exact hx)]
    by_cases hi : i < 64
    · rw [if_pos hi, Nat.div_eq_of_lt hi]; simp
    · rw [if_neg hi, ← ih hxs (i - 64)]
      have e : i / 64 = (i - 64) / 64 + 1 := by omega
      rw [e, List.getD_cons_succ]
      congr 1
      omega

theorem withoutLeadingZeros_eq {n : Nat} {a : List Nat} (h : IsWords n a) : withoutLeadingZeros a = (val a).bits.reverse := by
  have e : bitsBE a = (List.range (64 * a.length)).reverse.map (val a).testBit := List.map_congr_left fun i _ => testBit_val h i
  have hlt := val_lt h
  rw [withoutLeadingZeros, e]
  refine dropWhile_bits _ _ ?_
  rw [B64, ← pow_mul, ← h.1] at hlt
  exact hlt

end GS.Tower
