import Mathlib.Data.ZMod.Basic
import Mathlib.Data.Nat.Totient
import Mathlib.FieldTheory.Finite.Basic
import Mathlib.Tactic.LinearCombination
import Mathlib.Tactic.Ring
import Mathlib.Tactic.Linarith
import Verif.Model.Words

/-!
# Facts about arrays of words
-/

namespace GS.Words

/-- An array of the given number of words. -/
def IsWords (n : Nat) (l : List Nat) : Prop := l.length = n ∧ ∀ x ∈ l, x < B64

theorem b64_pos : 0 < B64 := by unfold B64; positivity

theorem b64_eq : B64 = 2 * 2 ^ 63 := by unfold B64; norm_num

theorem div_lt_b64 {x : Nat} (h : x < B64 * B64) : x / B64 < B64 := Nat.div_lt_of_lt_mul h

theorem mod_lt_b64 (x : Nat) : x % B64 < B64 := Nat.mod_lt _ b64_pos

theorem isWords_nil : IsWords 0 [] := ⟨rfl, by simp⟩

theorem isWords_cons {n x : Nat} {l : List Nat} (hx : x < B64) (hl : IsWords n l) : IsWords (n + 1) (x :: l) := by
  refine ⟨by simp [hl.1], fun y hy => ?_⟩
  rcases List.mem_cons.1 hy with rfl | hy
  · exact hx
  · exact hl.2 y hy

theorem isWords_cons_iff {n x : Nat} {l : List Nat} : IsWords (n + 1) (x :: l) ↔ x < B64 ∧ IsWords n l :=
  ⟨fun h => ⟨h.2 x (by simp), by simpa using h.1, fun y hy => h.2 y (by simp [hy])⟩, fun h => isWords_cons h.1 h.2⟩

theorem isWords_succ {n : Nat} {l : List Nat} (h : IsWords (n + 1) l) : ∃ x xs, l = x :: xs ∧ x < B64 ∧ IsWords n xs := by
  cases l with
  | nil => simp [IsWords] at h
  | cons x xs => exact ⟨x, xs, rfl, isWords_cons_iff.1 h⟩

theorem isWords_zero {l : List Nat} (h : IsWords 0 l) : l = [] := List.length_eq_zero_iff.1 h.1

theorem isWords_append {n m : Nat} {l l' : List Nat} (h : IsWords n l) (h' : IsWords m l') : IsWords (n + m) (l ++ l') := by
  refine ⟨by simp [h.1, h'.1], fun x hx => ?_⟩
  rcases List.mem_append.1 hx with hx | hx
  · exact h.2 x hx
  · exact h'.2 x hx

theorem val_append (l l' : List Nat) : val (l ++ l') = val l + B64 ^ l.length * val l' := by
  induction l with
  | nil => simp [val]
  | cons x xs ih => simp only [List.cons_append, val, ih, List.length_cons, pow_succ]; ring

theorem val_replicate_zero (n : Nat) : val (List.replicate n 0) = 0 := by
  induction n with
  | zero => rfl
  | succ n ih => simp [List.replicate_succ, val, ih]

theorem isWords_replicate_zero (n : Nat) : IsWords n (List.replicate n 0) :=
  ⟨by simp, fun x hx => by rw [(List.mem_replicate.1 hx).2]; exact b64_pos⟩

theorem val_lt {n : Nat} {l : List Nat} (h : IsWords n l) : val l < B64 ^ n := by
  induction n generalizing l with
  | zero => rw [isWords_zero h]; simp [val]
  | succ n ih =>
    obtain ⟨x, xs, rfl, hx, hxs⟩ := isWords_succ h
    have := ih hxs
    have h2 : B64 * val xs + B64 ≤ B64 * B64 ^ n := by rw [← Nat.mul_succ]; exact Nat.mul_le_mul_left _ this
    simp only [val, pow_succ]
    rw [Nat.mul_comm (B64 ^ n)]
    omega

theorem val_inj {n : Nat} {l l' : List Nat} (h : IsWords n l) (h' : IsWords n l') (e : val l = val l') : l = l' := by
  induction n generalizing l l' with
  | zero => rw [isWords_zero h, isWords_zero h']
  | succ n ih =>
    obtain ⟨x, xs, rfl, hx, hxs⟩ := isWords_succ h
    obtain ⟨y, ys, rfl, hy, hys⟩ := isWords_succ h'
    simp only [val] at e
    have e1 : x = y := by
      have := congrArg (· % B64) e
      simpa [Nat.add_mul_mod_self_left, Nat.mod_eq_of_lt hx, Nat.mod_eq_of_lt hy] using this
    subst e1
    have : val xs = val ys := Nat.eq_of_mul_eq_mul_left b64_pos (Nat.add_left_cancel e)
    rw [ih hxs hys this]

theorem isWords_ofNat (n x : Nat) : IsWords n (ofNat n x) := by
  induction n generalizing x with
  | zero => exact isWords_nil
  | succ n ih => exact isWords_cons (mod_lt_b64 _) (ih _)

theorem val_ofNat {n x : Nat} (h : x < B64 ^ n) : val (ofNat n x) = x := by
  induction n generalizing x with
  | zero => simp only [pow_zero] at h; simp only [ofNat, val]; omega
  | succ n ih =>
    simp only [ofNat, val]
    rw [ih (Nat.div_lt_of_lt_mul (by rwa [pow_succ, Nat.mul_comm] at h))]
    exact Nat.mod_add_div _ _

theorem addCarry_spec {n : Nat} {a b : List Nat} {c : Nat} (ha : IsWords n a) (hb : IsWords n b) (hc : c ≤ 1) :
    IsWords n (addCarry a b c).1 ∧ (addCarry a b c).2 ≤ 1 ∧ val (addCarry a b c).1 + B64 ^ n * (addCarry a b c).2 = val a + val b + c := by
  induction n generalizing a b c with
  | zero => rw [isWords_zero ha, isWords_zero hb]; simp [addCarry, val, isWords_nil, hc]
  | succ n ih =>
    obtain ⟨x, xs, rfl, hx, hxs⟩ := isWords_succ ha
    obtain ⟨y, ys, rfl, hy, hys⟩ := isWords_succ hb
    have hc' : (x + y + c) / B64 ≤ 1 := by
      have := b64_pos
      rw [← Nat.lt_succ_iff]
      exact Nat.div_lt_of_lt_mul (by omega)
    obtain ⟨h1, h2, h3⟩ := ih hxs hys hc'
    refine ⟨isWords_cons (mod_lt_b64 _) h1, h2, ?_⟩
    simp only [addCarry, adc, val] at h3 ⊢
    have e := Nat.mod_add_div (x + y + c) B64
    rw [pow_succ]
    linear_combination e + B64 * h3

theorem subBorrow_spec {n : Nat} {a b : List Nat} {c : Nat} (ha : IsWords n a) (hb : IsWords n b) (hc : c ≤ 1) :
    IsWords n (subBorrow a b c).1 ∧ (subBorrow a b c).2 ≤ 1 ∧ val (subBorrow a b c).1 + val b + c = val a + B64 ^ n * (subBorrow a b c).2 := by
  induction n generalizing a b c with
  | zero => rw [isWords_zero ha, isWords_zero hb]; simp [subBorrow, val, isWords_nil, hc]
  | succ n ih =>
    obtain ⟨x, xs, rfl, hx, hxs⟩ := isWords_succ ha
    obtain ⟨y, ys, rfl, hy, hys⟩ := isWords_succ hb
    have hc' : (sbb x y c).2 ≤ 1 := by unfold sbb; split <;> omega
    have hw : (sbb x y c).1 + y + c = x + B64 * (sbb x y c).2 := by
      have hp := b64_pos
      simp only [sbb]
      by_cases h : B64 + x - y - c < B64
      · rw [if_pos (Nat.div_eq_of_lt h), Nat.mod_eq_of_lt h]; omega
      · have h1 : (B64 + x - y - c) / B64 = 1 := by
          apply Nat.div_eq_of_lt_le <;> omega
        rw [if_neg (by omega), Nat.mod_eq_sub_mul_div, h1]; omega
    obtain ⟨h1, h2, h3⟩ := ih hxs hys hc'
    refine ⟨isWords_cons (mod_lt_b64 _) h1, h2, ?_⟩
    simp only [subBorrow, val] at h3 ⊢
    rw [pow_succ]
    linear_combination hw + B64 * h3

theorem compare_add_mul {x y u v : Nat} (hx : x < B64) (hy : y < B64) : compare (x + B64 * u) (y + B64 * v) = (compare u v).then (compare x y) := by
  rcases Nat.lt_trichotomy u v with h | h | h
  · have : B64 * u + B64 ≤ B64 * v := by rw [← Nat.mul_succ]; exact Nat.mul_le_mul_left _ h
    rw [Nat.compare_eq_lt.2 h, Nat.compare_eq_lt.2 (by omega)]; rfl
  · subst h
    rcases Nat.lt_trichotomy x y with h | h | h
    · rw [Nat.compare_eq_lt.2 h, Nat.compare_eq_lt.2 (by omega), Nat.compare_eq_eq.2 rfl]; rfl
    · subst h; rw [Nat.compare_eq_eq.2 rfl, Nat.compare_eq_eq.2 rfl, Nat.compare_eq_eq.2 rfl]; rfl
    · rw [Nat.compare_eq_gt.2 h, Nat.compare_eq_gt.2 (by omega), Nat.compare_eq_eq.2 rfl]; rfl
  · have : B64 * v + B64 ≤ B64 * u := by rw [← Nat.mul_succ]; exact Nat.mul_le_mul_left _ h
    rw [Nat.compare_eq_gt.2 h, Nat.compare_eq_gt.2 (by omega)]; rfl

theorem cmp_spec {n : Nat} {a b : List Nat} (ha : IsWords n a) (hb : IsWords n b) : cmp a b = compare (val a) (val b) := by
  induction n generalizing a b with
  | zero => rw [isWords_zero ha, isWords_zero hb]; rfl
  | succ n ih =>
    obtain ⟨x, xs, rfl, hx, hxs⟩ := isWords_succ ha
    obtain ⟨y, ys, rfl, hy, hys⟩ := isWords_succ hb
    simp only [cmp, val]
    rw [ih hxs hys, compare_add_mul hx hy]

theorem mul2_spec {n : Nat} {a : List Nat} {c : Nat} (ha : IsWords n a) (hc : c ≤ 1) (hb : 2 * val a + c < B64 ^ n) :
    IsWords n (mul2 a c) ∧ val (mul2 a c) = 2 * val a + c := by
  induction n generalizing a c with
  | zero => rw [isWords_zero ha] at hb ⊢; simp only [val, pow_zero, mul2] at *; exact ⟨isWords_nil, by omega⟩
  | succ n ih =>
    obtain ⟨x, xs, rfl, hx, hxs⟩ := isWords_succ ha
    have e64 := b64_eq
    have hx1 : x / 2 ^ 63 ≤ 1 := by rw [← Nat.lt_succ_iff]; exact Nat.div_lt_of_lt_mul (by omega)
    have hx2 : (x * 2) % B64 + B64 * (x / 2 ^ 63) = x * 2 := by
      have : x / 2 ^ 63 = x * 2 / B64 := by rw [e64, Nat.mul_comm x 2, Nat.mul_div_mul_left _ _ (by norm_num)]
      rw [this]; exact Nat.mod_add_div _ _
    have hx3 : (x * 2) % B64 + c < B64 := by
      rw [e64, Nat.mul_comm x 2, Nat.mul_mod_mul_left]; omega
    have hb' : 2 * val xs + x / 2 ^ 63 < B64 ^ n := by
      by_contra hcon
      have := Nat.mul_le_mul_left B64 (not_lt.1 hcon)
      simp only [val, pow_succ] at hb
      rw [Nat.mul_comm (B64 ^ n)] at hb
      have e2 : B64 * (2 * val xs + x / 2 ^ 63) = 2 * (B64 * val xs) + B64 * (x / 2 ^ 63) := by ring
      omega
    obtain ⟨h1, h2⟩ := ih hxs hx1 hb'
    refine ⟨isWords_cons hx3 h1, ?_⟩
    simp only [mul2, val, h2]
    linear_combination hx2

theorem div2_spec {n : Nat} {a : List Nat} (ha : IsWords n a) :
    IsWords n (div2 a).1 ∧ val (div2 a).1 = val a / 2 ∧ (div2 a).2 = (val a % 2) * 2 ^ 63 := by
  induction n generalizing a with
  | zero => rw [isWords_zero ha]; exact ⟨isWords_nil, rfl, rfl⟩
  | succ n ih =>
    obtain ⟨x, xs, rfl, hx, hxs⟩ := isWords_succ ha
    obtain ⟨h1, h2, h3⟩ := ih hxs
    have e64 := b64_eq
    have hm : val xs % 2 * 2 ^ 63 ≤ 2 ^ 63 := by have := Nat.mod_lt (val xs) (show 2 > 0 by norm_num); nlinarith
    have e := Nat.mod_add_div (val xs) 2
    have hB : B64 * val xs = 2 * (2 ^ 63 * (val xs % 2) + B64 * (val xs / 2)) := by
      conv_lhs => rw [← e]
      rw [Nat.mul_add, e64]; ring
    refine ⟨isWords_cons (by rw [h3]; omega) h1, ?_, ?_⟩
    · simp only [div2, val, h2, h3]
      rw [hB, Nat.add_mul_div_left _ _ (by norm_num : 0 < 2)]; ring
    · simp only [div2, val]
      rw [hB, Nat.add_mul_mod_self_left]

theorem isEven_spec {n : Nat} {a : List Nat} (ha : IsWords n a) : isEven a = decide (val a % 2 = 0) := by
  cases a with
  | nil => simp [isEven, val]
  | cons x xs =>
    have h : val (x :: xs) % 2 = x % 2 := by simp only [val]; rw [b64_eq, Nat.mul_assoc, Nat.add_mul_mod_self_left]
    rw [h]; rfl

theorem isZero_spec {a : List Nat} : isZero a = decide (val a = 0) := by
  induction a with
  | nil => rfl
  | cons x xs ih =>
    have := b64_pos
    simp only [isZero, List.all_cons, val] at ih ⊢
    rw [ih]
    rw [Bool.eq_iff_iff]
    simp only [Bool.and_eq_true, beq_iff_eq, decide_eq_true_eq, Nat.add_eq_zero_iff, Nat.mul_eq_zero]
    constructor
    · rintro ⟨rfl, h⟩; exact ⟨rfl, Or.inr h⟩
    · rintro ⟨rfl, h | h⟩
      · omega
      · exact ⟨rfl, h⟩

theorem subtractModulus_spec {n : Nat} {p a : List Nat} (hp : IsWords n p) (ha : IsWords n a) (h : val a < 2 * val p) :
    IsWords n (subtractModulus p a) ∧ val (subtractModulus p a) = val a % val p := by
  unfold subtractModulus
  rw [cmp_spec ha hp]
  by_cases hlt : val a < val p
  · rw [if_pos (Nat.compare_eq_lt.2 hlt), Nat.mod_eq_of_lt hlt]; exact ⟨ha, rfl⟩
  · rw [if_neg (by rw [Nat.compare_eq_lt]; exact hlt)]
    obtain ⟨h1, h2, h3⟩ := subBorrow_spec (c := 0) ha hp (by norm_num)
    refine ⟨h1, ?_⟩
    have h4 := val_lt h1
    have h5 : (subBorrow a p 0).2 = 0 := by
      by_contra hne
      have : (subBorrow a p 0).2 = 1 := by omega
      rw [this] at h3; omega
    rw [h5] at h3
    rw [Nat.mod_eq_sub_mod (not_lt.1 hlt), Nat.mod_eq_of_lt (by omega)]
    omega

/-- The constant is minus the inverse of the lowest word. -/
theorem inv_spec {p0 : Nat} (h : p0 % 2 = 1) : (1 + inv p0 * p0) % B64 = 0 := by
  have key : ∀ n, ((Nat.repeat (fun x => x * x % B64 * p0 % B64) n 1 : Nat) : ZMod B64) = (p0 : ZMod B64) ^ (2 ^ n - 1) := by
    intro n
    induction n with
    | zero => simp [Nat.repeat]
    | succ n ih =>
      simp only [Nat.repeat]
      rw [ZMod.natCast_mod, Nat.cast_mul, ZMod.natCast_mod, Nat.cast_mul, ih, ← pow_add, ← pow_succ]
      congr 1
      have := Nat.one_le_two_pow (n := n)
      rw [pow_succ]; omega
  have hco : Nat.Coprime p0 B64 := by
    unfold B64
    apply Nat.Coprime.pow_right
    rw [Nat.coprime_two_right]
    exact Nat.odd_iff.2 h
  have hphi : Nat.totient B64 = 2 ^ 63 := by
    unfold B64
    rw [Nat.totient_prime_pow Nat.prime_two (by norm_num)]; norm_num
  have hone : (p0 : ZMod B64) ^ (2 ^ 63 - 1) * p0 = 1 := by
    rw [← pow_succ]
    have := ZMod.pow_totient (ZMod.unitOfCoprime p0 hco)
    rw [hphi] at this
    have h2 := congrArg Units.val this
    simp only [Units.val_pow_eq_pow_val, ZMod.coe_unitOfCoprime, Units.val_one] at h2
    rwa [Nat.sub_add_cancel (Nat.one_le_two_pow)]
  have hle : Nat.repeat (fun x => x * x % B64 * p0 % B64) 63 1 ≤ B64 := (mod_lt_b64 _).le
  have : ((1 + inv p0 * p0 : Nat) : ZMod B64) = 0 := by
    unfold inv
    push_cast
    rw [ZMod.natCast_mod, Nat.cast_sub hle, key 63, ZMod.natCast_self]
    linear_combination -hone
  exact Nat.mod_eq_zero_of_dvd ((ZMod.natCast_eq_zero_iff _ _).1 this)

/-- The multiple of the modulus that clears the lowest word. -/
theorem clear_low {r0 p0 : Nat} (h : p0 % 2 = 1) : (r0 + (r0 * inv p0 % B64) * p0) % B64 = 0 := by
  have h1 : (r0 + (r0 * inv p0 % B64) * p0) % B64 = (r0 * (1 + inv p0 * p0)) % B64 := by
    have : r0 * (1 + inv p0 * p0) = r0 + (r0 * inv p0) * p0 := by ring
    rw [this]
    conv_rhs => rw [Nat.add_mod, Nat.mul_mod]
    conv_lhs => rw [Nat.add_mod, Nat.mul_mod, Nat.mod_mod]
  rw [h1, Nat.mul_mod, inv_spec h, Nat.mul_zero, Nat.zero_mod]

theorem mac_lt {a b c d : Nat} (ha : a < B64) (hb : b < B64) (hc : c < B64) (hd : d < B64) : (mac a b c d).1 < B64 ∧ (mac a b c d).2 < B64 ∧
    (mac a b c d).1 + B64 * (mac a b c d).2 = a + b * c + d := by
  refine ⟨mod_lt_b64 _, div_lt_b64 ?_, Nat.mod_add_div _ _⟩
  obtain ⟨w, hw⟩ : ∃ w, B64 = w + 1 := ⟨B64 - 1, by have := b64_pos; omega⟩
  have : b * c ≤ w * w := Nat.mul_le_mul (by omega) (by omega)
  have e : B64 * B64 = w * w + w + w + 1 := by rw [hw]; ring
  omega

theorem mulInner_spec {b k : Nat} (hb : b < B64) (hk : k < B64) {n : Nat} {rs as ps : List Nat} {c1 c2 : Nat} (hr : IsWords n rs) (ha : IsWords n as) (hp : IsWords n ps)
    (hc1 : c1 < B64) (hc2 : c2 < B64) (hlt : val rs + b * val as + k * val ps + c1 + c2 < B64 ^ (n + 1)) :
    ∃ out, mulInner b k rs as ps c1 c2 = some out ∧ IsWords (n + 1) out ∧ val out = val rs + b * val as + k * val ps + c1 + c2 := by
  induction n generalizing rs as ps c1 c2 with
  | zero =>
    rw [isWords_zero hr, isWords_zero ha, isWords_zero hp] at hlt ⊢
    simp only [val, Nat.mul_zero, Nat.zero_add, pow_one] at hlt ⊢
    exact ⟨[c1 + c2], by simp [mulInner, hlt], isWords_cons hlt isWords_nil, by simp [val]⟩
  | succ n ih =>
    obtain ⟨r, rs, rfl, hr0, hrs⟩ := isWords_succ hr
    obtain ⟨a, as, rfl, ha0, has⟩ := isWords_succ ha
    obtain ⟨p, ps, rfl, hp0, hps⟩ := isWords_succ hp
    obtain ⟨s1, s2, s3⟩ := mac_lt hr0 ha0 hb hc1
    obtain ⟨t1, t2, t3⟩ := mac_lt s1 hk hp0 hc2
    have hV : val (r :: rs) + b * val (a :: as) + k * val (p :: ps) + c1 + c2 =
        (mac (mac r a b c1).1 k p c2).1 + B64 * (val rs + b * val as + k * val ps + (mac r a b c1).2 + (mac (mac r a b c1).1 k p c2).2) := by
      simp only [val]
      linear_combination -s3 - t3
    rw [hV] at hlt ⊢
    have hlt' : val rs + b * val as + k * val ps + (mac r a b c1).2 + (mac (mac r a b c1).1 k p c2).2 < B64 ^ (n + 1) := by
      rw [pow_succ, Nat.mul_comm (B64 ^ (n + 1))] at hlt
      exact Nat.lt_of_mul_lt_mul_left (lt_of_le_of_lt (Nat.le_add_left _ _) hlt)
    obtain ⟨out, h1, h2, h3⟩ := ih hrs has hps s2 t2 hlt'
    refine ⟨(mac (mac r a b c1).1 k p c2).1 :: out, by simp only [mulInner, h1, Option.map_some], isWords_cons t1 h2, by simp only [val, h3]⟩

theorem mulRow_spec {n : Nat} {p a r : List Nat} {b : Nat} (hp : IsWords (n + 1) p) (ha : IsWords (n + 1) a) (hr : IsWords (n + 1) r) (hb : b < B64)
    (hodd : val p % 2 = 1) (hlt : ∀ k < B64, val r + b * val a + k * val p < B64 ^ (n + 2)) :
    ∃ out k, mulRow p a r b = some out ∧ IsWords (n + 1) out ∧ k < B64 ∧ B64 * val out = val r + b * val a + k * val p := by
  obtain ⟨r0, rs, rfl, hr0, hrs⟩ := isWords_succ hr
  obtain ⟨a0, as, rfl, ha0, has⟩ := isWords_succ ha
  obtain ⟨p0, ps, rfl, hp0, hps⟩ := isWords_succ hp
  have hodd0 : p0 % 2 = 1 := by
    simp only [val, b64_eq, Nat.mul_assoc, Nat.add_mul_mod_self_left] at hodd; exact hodd
  obtain ⟨s1, s2, s3⟩ := mac_lt hr0 ha0 hb b64_pos
  set s := mac r0 a0 b 0 with hs
  have hk : s.1 * inv p0 % B64 < B64 := mod_lt_b64 _
  obtain ⟨t1, t2, t3⟩ := mac_lt s1 hk hp0 b64_pos
  have hclear : (mac s.1 (s.1 * inv p0 % B64) p0 0).1 = 0 := by simp only [mac, Nat.add_zero]; exact clear_low hodd0
  set k := s.1 * inv p0 % B64 with hkdef
  rw [hclear] at t3
  have hV : val (r0 :: rs) + b * val (a0 :: as) + k * val (p0 :: ps) = B64 * (val rs + b * val as + k * val ps + s.2 + (mac s.1 k p0 0).2) := by
    simp only [val]
    linear_combination -s3 - t3
  have hpos : 0 < val (p0 :: ps) := by omega
  have hlt' : val rs + b * val as + k * val ps + s.2 + (mac s.1 k p0 0).2 < B64 ^ (n + 1) := by
    have := hlt k hk
    have h2 : B64 * (val rs + b * val as + k * val ps + s.2 + (mac s.1 k p0 0).2) < B64 * B64 ^ (n + 1) := by
      rw [← hV, Nat.mul_comm B64 (B64 ^ (n + 1)), ← pow_succ]; omega
    exact Nat.lt_of_mul_lt_mul_left h2
  obtain ⟨out, h1, h2, h3⟩ := mulInner_spec hb hk hrs has hps s2 t2 hlt'
  exact ⟨out, k, h1, h2, hk, by rw [h3, hV]⟩

theorem mulRows_spec {n : Nat} {p a : List Nat} (hp : IsWords (n + 1) p) (ha : IsWords (n + 1) a) (hodd : val p % 2 = 1) (hspare : 2 * val p ≤ B64 ^ (n + 1)) (hap : val a < val p)
    {b : List Nat} (hb : ∀ x ∈ b, x < B64) {r : List Nat} (hr : IsWords (n + 1) r) (hrp : val r < 2 * val p) :
    ∃ out K, b.foldlM (mulRow p a) r = some out ∧ IsWords (n + 1) out ∧ K < B64 ^ b.length ∧ B64 ^ b.length * val out = val r + val b * val a + K * val p := by
  induction b generalizing r with
  | nil => exact ⟨r, 0, rfl, hr, by simp, by simp [val]⟩
  | cons x xs ih =>
    have hx := hb x (by simp)
    obtain ⟨w, hw⟩ : ∃ w, B64 = w + 1 := ⟨B64 - 1, by have := b64_pos; omega⟩
    have hbound : ∀ k < B64, val r + x * val a + k * val p < B64 * (2 * val p) := by
      intro k hk
      have h1 : x * val a ≤ w * val p := Nat.mul_le_mul (by omega) hap.le
      have h2 : k * val p ≤ w * val p := Nat.mul_le_mul_right _ (by omega)
      have h3 : B64 * (2 * val p) = 2 * val p + w * val p + w * val p := by rw [hw]; ring
      omega
    obtain ⟨r1, k, h1, h2, h3, h4⟩ := mulRow_spec hp ha hr hx hodd (fun k hk => (hbound k hk).trans_le (by
      rw [pow_succ, Nat.mul_comm (B64 ^ (n + 1))]
      exact Nat.mul_le_mul_left _ hspare))
    have hr1 : val r1 < 2 * val p := Nat.lt_of_mul_lt_mul_left (a := B64) (by rw [h4]; exact hbound k h3)
    obtain ⟨out, K, g1, g2, g3, g4⟩ := ih (fun y hy => hb y (by simp [hy])) h2 hr1
    refine ⟨out, k + B64 * K, by rw [List.foldlM_cons, h1]; exact g1, g2, ?_, ?_⟩
    · rw [List.length_cons, pow_succ, Nat.mul_comm (B64 ^ _)]
      have := Nat.mul_le_mul_left B64 (Nat.succ_le_of_lt g3)
      rw [Nat.mul_succ] at this
      omega
    · rw [List.length_cons, pow_succ]
      simp only [val]
      linear_combination B64 * g4 + h4

/-- Montgomery's bound: what is left after all the words is below twice the modulus. -/
theorem mont_bound {R p r V K m : Nat} (h : R * r = V + K * p) (hK : K < R) (hV : V ≤ m * (p * p)) (hm : m * p ≤ R) (hp : 0 < p) : r < 2 * p := by
  apply Nat.lt_of_mul_lt_mul_left (a := R)
  rw [h]
  have h1 : m * (p * p) ≤ R * p := by rw [← Nat.mul_assoc]; exact Nat.mul_le_mul_right _ hm
  have h2 : K * p < R * p := Nat.mul_lt_mul_of_pos_right hK hp
  have h3 : R * (2 * p) = R * p + R * p := by ring
  omega

theorem mul_spec {n : Nat} {p a b : List Nat} (hp : IsWords (n + 1) p) (hodd : val p % 2 = 1) (hspare : 2 * val p ≤ B64 ^ (n + 1)) (ha : IsWords (n + 1) a) (hap : val a < val p)
    (hb : IsWords (n + 1) b) (hbp : val b < val p) :
    ∃ out, mul p a b = some out ∧ IsWords (n + 1) out ∧ val out < val p ∧ B64 ^ (n + 1) * val out ≡ val a * val b [MOD val p] := by
  obtain ⟨r, K, h1, h2, h3, h4⟩ := mulRows_spec hp ha hodd hspare hap hb.2 (isWords_replicate_zero (n + 1)) (by rw [val_replicate_zero]; omega)
  rw [hb.1, val_replicate_zero, Nat.zero_add] at h4
  rw [hb.1] at h3
  have hlt : val r < 2 * val p := mont_bound (m := 1) h4 h3 (by rw [Nat.one_mul]; exact Nat.mul_le_mul hbp.le hap.le) (by omega) (by omega)
  obtain ⟨g1, g2⟩ := subtractModulus_spec hp h2 hlt
  refine ⟨_, by rw [mul, hp.1, h1, Option.map_some], g1, by rw [g2]; exact Nat.mod_lt _ (by omega), ?_⟩
  rw [g2]
  calc B64 ^ (n + 1) * (val r % val p) ≡ B64 ^ (n + 1) * val r [MOD val p] := Nat.ModEq.mul_left _ (Nat.mod_modEq _ _)
    _ = val b * val a + K * val p := h4
    _ ≡ val a * val b [MOD val p] := by rw [Nat.mul_comm (val b)]; unfold Nat.ModEq; rw [Nat.add_mul_mod_self_right]

theorem macRow_spec {b : Nat} (hb : b < B64) {n : Nat} {r as : List Nat} (r' : List Nat) {c : Nat} (hr : IsWords n r) (ha : IsWords n as) (hc : c < B64) :
    (macRow b (r ++ r') as c).2.1 = r' ∧ IsWords n (macRow b (r ++ r') as c).1 ∧ (macRow b (r ++ r') as c).2.2 < B64 ∧
      val (macRow b (r ++ r') as c).1 + B64 ^ n * (macRow b (r ++ r') as c).2.2 = val r + b * val as + c := by
  induction n generalizing r as c with
  | zero =>
    rw [isWords_zero hr, isWords_zero ha]
    cases r' <;> simp [macRow, isWords_nil, hc, val]
  | succ n ih =>
    obtain ⟨x, xs, rfl, hx, hxs⟩ := isWords_succ hr
    obtain ⟨y, ys, rfl, hy, hys⟩ := isWords_succ ha
    obtain ⟨s1, s2, s3⟩ := mac_lt hx hy hb hc
    obtain ⟨h1, h2, h3, h4⟩ := ih hxs hys s2
    refine ⟨h1, isWords_cons s1 h2, h3, ?_⟩
    simp only [List.cons_append, macRow, val]
    rw [pow_succ]
    linear_combination s3 + B64 * h4

/-- The sum of the products of different words, with their weights. -/
def offVal : List Nat → Nat
  | [] => 0
  | a :: as => B64 * (a * val as) + B64 * B64 * offVal as

/-- The sum of the squares of the words, with their weights. -/
def diagVal : List Nat → Nat
  | [] => 0
  | a :: as => a * a + B64 * B64 * diagVal as

theorem off_diag (a : List Nat) : 2 * offVal a + diagVal a = val a * val a := by
  induction a with
  | nil => rfl
  | cons x xs ih => simp only [offVal, diagVal, val]; linear_combination (B64 * B64) * ih

theorem squareOff_spec {m : Nat} {a r : List Nat} (ha : IsWords m a) (hr : IsWords m r) :
    IsWords (2 * m) (squareOff a (r ++ List.replicate m 0)) ∧ val (squareOff a (r ++ List.replicate m 0)) = val r + offVal a := by
  induction m generalizing a r with
  | zero => rw [isWords_zero ha, isWords_zero hr]; exact ⟨isWords_nil, rfl⟩
  | succ m ih =>
    obtain ⟨x, xs, rfl, hx, hxs⟩ := isWords_succ ha
    obtain ⟨r0, rs, rfl, hr0, hrs⟩ := isWords_succ hr
    cases m with
    | zero =>
      rw [isWords_zero hxs, isWords_zero hrs]
      exact ⟨isWords_cons hr0 (isWords_cons b64_pos isWords_nil), by simp [squareOff, List.replicate, macRow, val, offVal]⟩
    | succ m =>
      obtain ⟨h1, h2, h3, h4⟩ := macRow_spec hx (List.replicate (m + 1 + 1) 0) hrs hxs b64_pos
      have hne : xs.isEmpty = false := by obtain ⟨y, ys, rfl, _, _⟩ := isWords_succ hxs; rfl
      obtain ⟨y, ys, hys, hy, hysw⟩ := isWords_succ h2
      set t := macRow x (rs ++ List.replicate (m + 1 + 1) 0) xs 0 with ht
      have e : squareOff (x :: xs) (r0 :: rs ++ List.replicate (m + 1 + 1) 0) = r0 :: y :: squareOff xs ((ys ++ [t.2.2]) ++ List.replicate (m + 1) 0) := by
        simp only [squareOff, List.cons_append]
        rw [← ht, hne, h1, hys]
        simp [List.replicate_succ]
      obtain ⟨g1, g2⟩ := ih hxs (isWords_append hysw (isWords_cons h3 isWords_nil))
      rw [e]
      refine ⟨?_, ?_⟩
      · have := isWords_cons hr0 (isWords_cons hy g1)
        rwa [show 2 * (m + 1) + 1 + 1 = 2 * (m + 1 + 1) by ring] at this
      · rw [hys] at h4
        simp only [val, g2, val_append, offVal, hysw.1] at h4 ⊢
        rw [pow_succ] at h4
        linear_combination B64 * h4

theorem squareDiag_spec {m : Nat} {a r : List Nat} {c : Nat} (ha : IsWords m a) (hr : IsWords (2 * m) r) (hc : c < B64) (hlt : val r + diagVal a + c < B64 ^ (2 * m)) :
    IsWords (2 * m) (squareDiag a r c) ∧ val (squareDiag a r c) = val r + diagVal a + c := by
  induction m generalizing a r c with
  | zero =>
    rw [isWords_zero ha, isWords_zero hr] at hlt ⊢
    simp only [val, diagVal, Nat.mul_zero, pow_zero] at hlt
    exact ⟨isWords_nil, by simp only [squareDiag, val, diagVal]; omega⟩
  | succ m ih =>
    obtain ⟨x, xs, rfl, hx, hxs⟩ := isWords_succ ha
    obtain ⟨r0, rs, rfl, hr0, hrs⟩ := isWords_succ (n := 2 * m + 1) hr
    obtain ⟨r1, rs, rfl, hr1, hrs⟩ := isWords_succ hrs
    obtain ⟨s1, s2, s3⟩ := mac_lt hr0 hx hx hc
    set s := mac r0 x x c with hs
    have t3 : (adc r1 0 s.2).1 + B64 * (adc r1 0 s.2).2 = r1 + s.2 := by
      simp only [adc, Nat.add_zero]; exact Nat.mod_add_div _ _
    have t2 : (adc r1 0 s.2).2 < B64 := by
      simp only [adc, Nat.add_zero]
      have : 2 ≤ B64 := by unfold B64; norm_num
      exact div_lt_b64 (lt_of_lt_of_le (by omega : r1 + s.2 < 2 * B64) (Nat.mul_le_mul_right _ this))
    have t1 : (adc r1 0 s.2).1 < B64 := mod_lt_b64 _
    have hV : val (r0 :: r1 :: rs) + diagVal (x :: xs) + c = s.1 + B64 * ((adc r1 0 s.2).1 + B64 * (val rs + diagVal xs + (adc r1 0 s.2).2)) := by
      simp only [val, diagVal]
      linear_combination -s3 - B64 * t3
    rw [hV] at hlt ⊢
    have hlt' : val rs + diagVal xs + (adc r1 0 s.2).2 < B64 ^ (2 * m) := by
      rw [show 2 * (m + 1) = 2 * m + 1 + 1 by ring, pow_succ, Nat.mul_comm (B64 ^ (2 * m + 1)), pow_succ, Nat.mul_comm (B64 ^ (2 * m))] at hlt
      have := Nat.lt_of_mul_lt_mul_left (lt_of_le_of_lt (Nat.le_add_left _ _) hlt)
      exact Nat.lt_of_mul_lt_mul_left (lt_of_le_of_lt (Nat.le_add_left _ _) this)
    obtain ⟨g1, g2⟩ := ih hxs hrs t2 hlt'
    refine ⟨isWords_cons (n := 2 * m + 1) s1 (isWords_cons t1 g1), ?_⟩
    simp only [squareDiag, val, ← hs, g2]

theorem reduceStep_spec {n m : Nat} {p r : List Nat} {c : Nat} (hp : IsWords (n + 1) p) (hodd : val p % 2 = 1) (hr : IsWords (n + 1 + (m + 1)) r) (hc : c ≤ 1) :
    ∃ r' c' k, reduceStep p r c = some (r', c') ∧ IsWords (n + 1 + m) r' ∧ c' ≤ 1 ∧ k < B64 ∧
      B64 * (val r' + B64 ^ (n + 1) * c') = val r + B64 ^ (n + 1) * c + k * val p := by
  obtain ⟨p0, ps, rfl, hp0, hps⟩ := isWords_succ hp
  have hodd0 : p0 % 2 = 1 := by
    simp only [val, b64_eq, Nat.mul_assoc, Nat.add_mul_mod_self_left] at hodd; exact hodd
  obtain ⟨r0, rest, rfl, hr0, hrest⟩ := isWords_succ (n := n + 1 + m) (l := r) hr
  have hlen : rest.length = n + 1 + m := hrest.1
  obtain ⟨rs, x, xs, rfl, hrs, hx, hxs⟩ : ∃ rs x xs, rest = rs ++ x :: xs ∧ IsWords n rs ∧ x < B64 ∧ IsWords m xs := by
    have hd : IsWords (m + 1) (rest.drop n) := ⟨by rw [List.length_drop]; omega, fun y hy => hrest.2 y (List.mem_of_mem_drop hy)⟩
    obtain ⟨x, xs, h1, h2, h3⟩ := isWords_succ hd
    exact ⟨rest.take n, x, xs, by rw [← h1, List.take_append_drop], ⟨by rw [List.length_take]; omega, fun y hy => hrest.2 y (List.mem_of_mem_take hy)⟩, h2, h3⟩
  have hk : r0 * inv p0 % B64 < B64 := mod_lt_b64 _
  obtain ⟨t1, t2, t3⟩ := mac_lt hr0 hk hp0 b64_pos
  have hclear : (mac r0 (r0 * inv p0 % B64) p0 0).1 = 0 := by simp only [mac, Nat.add_zero]; exact clear_low hodd0
  set k := r0 * inv p0 % B64 with hkdef
  rw [hclear] at t3
  obtain ⟨h1, h2, h3, h4⟩ := macRow_spec hk (x :: xs) hrs hps t2
  set t := macRow k (rs ++ x :: xs) ps (mac r0 k p0 0).2 with ht
  have hu3 : (adc x t.2.2 c).1 + B64 * (adc x t.2.2 c).2 = x + t.2.2 + c := Nat.mod_add_div _ _
  have hu2 : (adc x t.2.2 c).2 ≤ 1 := by
    rw [← Nat.lt_succ_iff]
    exact Nat.div_lt_of_lt_mul (by omega)
  refine ⟨t.1 ++ (adc x t.2.2 c).1 :: xs, (adc x t.2.2 c).2, k, ?_, ?_, hu2, hk, ?_⟩
  · simp only [reduceStep]
    rw [← hkdef, ← ht, h1]
  · have := isWords_append h2 (isWords_cons (mod_lt_b64 _ : (adc x t.2.2 c).1 < B64) hxs)
    rwa [show n + (m + 1) = n + 1 + m by ring] at this
  · simp only [val, val_append, h2.1, hrs.1]
    linear_combination B64 * h4 + t3 + (B64 ^ (n + 1)) * hu3

theorem reduceSteps_spec {n : Nat} {p : List Nat} (hp : IsWords (n + 1) p) (hodd : val p % 2 = 1) {m : Nat} {r : List Nat} {c : Nat} (hr : IsWords (n + 1 + m) r) (hc : c ≤ 1) :
    ∃ r' c' K, reduceSteps p m r c = some r' ∧ IsWords (n + 1) r' ∧ K < B64 ^ m ∧
      B64 ^ m * (val r' + B64 ^ (n + 1) * c') = val r + B64 ^ (n + 1) * c + K * val p := by
  induction m generalizing r c with
  | zero => exact ⟨r, c, 0, rfl, hr, by simp, by simp⟩
  | succ m ih =>
    obtain ⟨r1, c1, k, h1, h2, h3, h4, h5⟩ := reduceStep_spec hp hodd hr hc
    obtain ⟨r', c', K, g1, g2, g3, g4⟩ := ih h2 h3
    refine ⟨r', c', k + B64 * K, by simp only [reduceSteps, h1, Option.bind_some, g1], g2, ?_, ?_⟩
    · rw [pow_succ, Nat.mul_comm (B64 ^ _)]
      have := Nat.mul_le_mul_left B64 (Nat.succ_le_of_lt g3)
      rw [Nat.mul_succ] at this
      omega
    · rw [pow_succ]
      linear_combination B64 * g4 + h5

theorem square_spec {n : Nat} {p a : List Nat} (hp : IsWords (n + 1) p) (hodd : val p % 2 = 1) (hspare : 2 * val p ≤ B64 ^ (n + 1)) (ha : IsWords (n + 1) a) (hap : val a < val p) :
    ∃ out, square p a = some out ∧ IsWords (n + 1) out ∧ val out < val p ∧ B64 ^ (n + 1) * val out ≡ val a * val a [MOD val p] := by
  unfold square
  split
  · exact mul_spec hp hodd hspare ha hap ha hap
  · have hsq : val a * val a < B64 ^ (2 * (n + 1)) := by
      rw [two_mul, pow_add]
      have h := val_lt ha
      exact Nat.mul_lt_mul'' h h
    have hrep : List.replicate (2 * p.length) 0 = List.replicate (n + 1) 0 ++ List.replicate (n + 1) 0 := by
      rw [hp.1, two_mul, List.replicate_add]
    obtain ⟨o1, o2⟩ := squareOff_spec ha (isWords_replicate_zero (n + 1))
    rw [val_replicate_zero, Nat.zero_add] at o2
    have hod := off_diag a
    obtain ⟨d1, d2⟩ := mul2_spec (c := 0) o1 (by norm_num) (by rw [o2]; omega)
    rw [o2] at d2
    obtain ⟨q1, q2⟩ := squareDiag_spec (c := 0) ha d1 b64_pos (by rw [d2]; omega)
    rw [two_mul] at q1
    obtain ⟨r', c', K, g1, g2, g3, g4⟩ := reduceSteps_spec hp hodd q1 (show 0 ≤ 1 by norm_num)
    have e : B64 ^ (n + 1) * (val r' + B64 ^ (n + 1) * c') = val a * val a + K * val p := by
      rw [g4, q2, d2]; linear_combination hod
    have hlt := mont_bound (m := 1) e g3 (by rw [Nat.one_mul]; exact Nat.mul_le_mul hap.le hap.le) (by omega) (by omega)
    have hc' : c' = 0 := by
      by_contra hne
      have : B64 ^ (n + 1) ≤ B64 ^ (n + 1) * c' := Nat.le_mul_of_pos_right _ (by omega)
      omega
    rw [hc', Nat.mul_zero, Nat.add_zero] at e hlt
    obtain ⟨f1, f2⟩ := subtractModulus_spec hp g2 hlt
    refine ⟨_, by rw [hrep, hp.1, g1, Option.map_some], f1, by rw [f2]; exact Nat.mod_lt _ (by omega), ?_⟩
    rw [f2]
    calc B64 ^ (n + 1) * (val r' % val p) ≡ B64 ^ (n + 1) * val r' [MOD val p] := Nat.ModEq.mul_left _ (Nat.mod_modEq _ _)
      _ = val a * val a + K * val p := e
      _ ≡ val a * val a [MOD val p] := by unfold Nat.ModEq; rw [Nat.add_mul_mod_self_right]

theorem intoStep_spec {n : Nat} {p r : List Nat} (hp : IsWords (n + 1) p) (hodd : val p % 2 = 1) (hr : IsWords (n + 1) r) :
    IsWords (n + 1) (intoStep p r) ∧ ∃ k < B64, B64 * val (intoStep p r) = val r + k * val p := by
  obtain ⟨p0, ps, rfl, hp0, hps⟩ := isWords_succ hp
  have hodd0 : p0 % 2 = 1 := by
    simp only [val, b64_eq, Nat.mul_assoc, Nat.add_mul_mod_self_left] at hodd; exact hodd
  obtain ⟨r0, rs, rfl, hr0, hrs⟩ := isWords_succ hr
  have hk : r0 * inv p0 % B64 < B64 := mod_lt_b64 _
  obtain ⟨t1, t2, t3⟩ := mac_lt hr0 hk hp0 b64_pos
  have hclear : (mac r0 (r0 * inv p0 % B64) p0 0).1 = 0 := by simp only [mac, Nat.add_zero]; exact clear_low hodd0
  set k := r0 * inv p0 % B64 with hkdef
  rw [hclear] at t3
  obtain ⟨h1, h2, h3, h4⟩ := macRow_spec hk [] hrs hps t2
  rw [List.append_nil] at h1 h2 h3 h4
  have e : intoStep (p0 :: ps) (r0 :: rs) = (macRow k rs ps (mac r0 k p0 0).2).1 ++ [(macRow k rs ps (mac r0 k p0 0).2).2.2] := rfl
  rw [e]
  refine ⟨isWords_append h2 (isWords_cons h3 isWords_nil), k, hk, ?_⟩
  simp only [val, val_append, h2.1]
  linear_combination B64 * h4 + t3

theorem intoSteps_spec {n : Nat} {p r : List Nat} (hp : IsWords (n + 1) p) (hodd : val p % 2 = 1) (hr : IsWords (n + 1) r) (m : Nat) :
    IsWords (n + 1) (Nat.repeat (intoStep p) m r) ∧ ∃ K < B64 ^ m, B64 ^ m * val (Nat.repeat (intoStep p) m r) = val r + K * val p := by
  induction m with
  | zero => exact ⟨hr, 0, by simp, by simp [Nat.repeat]⟩
  | succ m ih =>
    obtain ⟨h1, K, h2, h3⟩ := ih
    obtain ⟨g1, k, g2, g3⟩ := intoStep_spec hp hodd h1
    refine ⟨g1, K + B64 ^ m * k, ?_, ?_⟩
    · rw [pow_succ]
      have := Nat.mul_le_mul_left (B64 ^ m) (Nat.succ_le_of_lt g2)
      rw [Nat.mul_succ] at this
      omega
    · rw [Nat.repeat, pow_succ]
      linear_combination (B64 ^ m) * g3 + h3

theorem intoBigint_spec {n : Nat} {p a : List Nat} (hp : IsWords (n + 1) p) (hodd : val p % 2 = 1) (ha : IsWords (n + 1) a) (hap : val a < val p) :
    IsWords (n + 1) (intoBigint p a) ∧ val (intoBigint p a) < val p ∧ B64 ^ (n + 1) * val (intoBigint p a) ≡ val a [MOD val p] := by
  obtain ⟨h1, K, h2, h3⟩ := intoSteps_spec hp hodd ha (n + 1)
  unfold intoBigint
  rw [hp.1]
  refine ⟨h1, ?_, ?_⟩
  · apply Nat.lt_of_mul_lt_mul_left (a := B64 ^ (n + 1))
    rw [h3]
    have := Nat.mul_le_mul_right (val p) (Nat.succ_le_of_lt h2)
    rw [Nat.succ_mul] at this
    omega
  · rw [h3]; unfold Nat.ModEq; rw [Nat.add_mul_mod_self_right]

end GS.Words
