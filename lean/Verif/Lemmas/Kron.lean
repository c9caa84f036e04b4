import Mathlib.Tactic.Ring
import Mathlib.Tactic.LinearCombination
import Mathlib.Algebra.Field.Basic

/-!
# Computing in a field of polynomials, with one number for each polynomial

Polynomials of degree less than 12 modulo `w ^ 12 - 2 w ^ 6 + 2` and modulo `p`; a polynomial is represented by its value at a large power of 2.
-/

namespace GS

/-- The value of a polynomial. -/
def evL {R : Type} [CommSemiring R] (w : R) : List Nat → R
  | [] => 0
  | x :: l => (x : R) + w * evL w l

/-- The sum of two polynomials. -/
def polyAdd : List Nat → List Nat → List Nat
  | [], l => l
  | l, [] => l
  | x :: l, y :: m => (x + y) :: polyAdd l m

/-- The product of two polynomials. -/
def polyMul : List Nat → List Nat → List Nat
  | [], _ => []
  | x :: l, m => polyAdd (m.map (x * ·)) (0 :: polyMul l m)

section
variable {R : Type} [CommSemiring R] (w : R)

theorem evL_add : ∀ l m : List Nat, evL w (polyAdd l m) = evL w l + evL w m
  | [], m => by simp [polyAdd, evL]
  | x :: l, [] => by simp [polyAdd, evL]
  | x :: l, y :: m => by
    simp only [polyAdd, evL, evL_add l m]
    push_cast
    ring

theorem evL_scale (x : Nat) : ∀ l : List Nat, evL w (l.map (x * ·)) = x * evL w l
  | [] => by simp [evL]
  | y :: l => by
    simp only [List.map_cons, evL, evL_scale x l]
    push_cast
    ring

theorem evL_mul : ∀ l m : List Nat, evL w (polyMul l m) = evL w l * evL w m
  | [], m => by simp [polyMul, evL]
  | x :: l, m => by
    simp only [polyMul, evL_add, evL_scale, evL, evL_mul l m]
    push_cast
    ring

theorem evL_zeros (n : Nat) (l : List Nat) : evL w (List.replicate n 0 ++ l) = w ^ n * evL w l := by
  induction n with
  | zero => simp
  | succ n ih =>
    rw [List.replicate_succ, List.cons_append, evL, ih]
    push_cast
    ring

theorem evL_split (n : Nat) : ∀ l : List Nat, evL w l = evL w (l.take n) + w ^ n * evL w (l.drop n) := by
  induction n with
  | zero => intro l; simp [evL]
  | succ n ih =>
    rintro (_ | ⟨x, l⟩)
    · simp [evL]
    · rw [evL, ih l, List.take_succ_cons, List.drop_succ_cons, evL]
      ring

end

theorem length_polyAdd : ∀ l m : List Nat, (polyAdd l m).length = max l.length m.length
  | [], m => by simp [polyAdd]
  | x :: l, [] => by simp [polyAdd]
  | x :: l, y :: m => by simp [polyAdd, length_polyAdd l m]

theorem length_polyMul : ∀ l m : List Nat, (polyMul l m).length ≤ l.length + m.length
  | [], m => by simp [polyMul]
  | x :: l, m => by
    have := length_polyMul l m
    simp only [polyMul, length_polyAdd, List.length_map, List.length_cons]
    omega

theorem polyAdd_le {s t : Nat} : ∀ l m : List Nat, (∀ x ∈ l, x ≤ s) → (∀ x ∈ m, x ≤ t) → ∀ x ∈ polyAdd l m, x ≤ s + t
  | [], m => fun _ h x hx => (h x hx).trans (Nat.le_add_left _ _)
  | x :: l, [] => fun h _ x hx => (h x hx).trans (Nat.le_add_right _ _)
  | x :: l, y :: m => fun h h' z hz => by
    rcases List.mem_cons.mp hz with rfl | hz
    · exact Nat.add_le_add (h x (by simp)) (h' y (by simp))
    · exact polyAdd_le l m (fun x hx => h x (by simp [hx])) (fun x hx => h' x (by simp [hx])) z hz

theorem polyMul_le {s : Nat} : ∀ l m : List Nat, (∀ x ∈ l, x ≤ s) → (∀ x ∈ m, x ≤ s) → ∀ x ∈ polyMul l m, x ≤ l.length * (s * s)
  | [], m => fun _ _ x hx => by simp [polyMul] at hx
  | x :: l, m => fun h h' z hz => by
    have h1 : ∀ z ∈ m.map (x * ·), z ≤ s * s := by
      intro z hz
      obtain ⟨y, hy, rfl⟩ := List.mem_map.mp hz
      exact Nat.mul_le_mul (h x (by simp)) (h' y hy)
    have h2 : ∀ z ∈ 0 :: polyMul l m, z ≤ l.length * (s * s) := by
      intro z hz
      rcases List.mem_cons.mp hz with rfl | hz
      · exact Nat.zero_le _
      · exact polyMul_le l m (fun x hx => h x (by simp [hx])) h' z hz
    have := polyAdd_le _ _ h1 h2 z hz
    rw [List.length_cons, Nat.add_mul, Nat.one_mul, Nat.add_comm]
    exact this

/-- The value at `B`. -/
def pack (B : Nat) : List Nat → Nat
  | [] => 0
  | x :: l => x + B * pack B l

theorem pack_eq (B : Nat) : ∀ l, pack B l = evL B l
  | [] => rfl
  | x :: l => by rw [pack, evL, pack_eq B l]; rfl

/-- The first `k` digits in base `B`. -/
def unpack (B : Nat) : Nat → Nat → List Nat
  | 0, _ => []
  | k + 1, n => n % B :: unpack B k (n / B)

theorem length_unpack (B : Nat) : ∀ k n, (unpack B k n).length = k
  | 0, _ => rfl
  | k + 1, n => by rw [unpack, List.length_cons, length_unpack B k]

theorem evL_unpack_zero {R : Type} [CommSemiring R] (w : R) (B : Nat) : ∀ k, evL w (unpack B k 0) = 0
  | 0 => rfl
  | k + 1 => by rw [unpack, evL, Nat.zero_div, evL_unpack_zero w B k, Nat.zero_mod]; simp

theorem unpack_pack {R : Type} [CommSemiring R] (w : R) {B : Nat} (hB : 0 < B) : ∀ (l : List Nat) (k : Nat), l.length ≤ k → (∀ x ∈ l, x < B) →
    evL w (unpack B k (pack B l)) = evL w l
  | [], k, _, _ => evL_unpack_zero w B k
  | x :: l, 0, h, _ => by simp at h
  | x :: l, k + 1, h, hl => by
    have hx := hl x (by simp)
    rw [pack, unpack, Nat.add_mul_mod_self_left, Nat.mod_eq_of_lt hx, Nat.add_mul_div_left _ _ hB, Nat.div_eq_of_lt hx, Nat.zero_add, evL, evL,
      unpack_pack w hB l k (by simpa using h) (fun y hy => hl y (by simp [hy]))]

/-- `w ^ 12 = 2 w ^ 6 - 2`. -/
def fold12 (p : Nat) (l : List Nat) : List Nat :=
  let hi := (l.drop 12).map (· % p)
  polyAdd (l.take 12) (polyAdd (List.replicate 6 0 ++ hi.map (2 * ·)) (hi.map fun x => 2 * (p - x)))

/-- The remainder, from 24 digits. -/
def norm12 (p : Nat) (l : List Nat) : List Nat := (fold12 p (fold12 p l)).map (· % p)

/-- Large enough for a sum of products. -/
def baseB : Nat := 2 ^ 800

theorem baseB_pos : 0 < baseB := by decide +kernel

/-- The product. -/
def mulP (p a b : Nat) : Nat := pack baseB (norm12 p (unpack baseB 24 (a * b)))

/-- It represents a polynomial with reduced coefficients. -/
def GoodP (p n : Nat) : Prop := ∃ l : List Nat, l.length = 12 ∧ (∀ x ∈ l, x < p) ∧ n = pack baseB l

section
variable {L : Type} [Field L] {w : L} {p : Nat} (hp : (p : L) = 0)

include hp in
theorem cast_mod (x : Nat) : ((x % p : Nat) : L) = x := by
  conv_rhs => rw [← Nat.div_add_mod x p]
  push_cast
  rw [hp]; ring

include hp in
theorem evL_mod : ∀ l : List Nat, evL w (l.map (· % p)) = evL w l
  | [] => rfl
  | x :: l => by rw [List.map_cons, evL, evL, evL_mod l, cast_mod hp]

include hp in
theorem evL_neg : ∀ l : List Nat, (∀ x ∈ l, x ≤ p) → evL w (l.map fun x => 2 * (p - x)) = -2 * evL w l
  | [], _ => by simp [evL]
  | x :: l, h => by
    rw [List.map_cons, evL, evL, evL_neg l fun y hy => h y (by simp [hy])]
    rw [Nat.cast_mul, Nat.cast_sub (h x (by simp)), hp]
    push_cast
    ring

variable (h0 : 0 < p) (hw : w ^ 12 = 2 * w ^ 6 - 2)

include hp h0 hw in
theorem fold12_eq (l : List Nat) : evL w (fold12 p l) = evL w l := by
  rw [fold12, evL_add, evL_add, evL_zeros, evL_scale, evL_neg hp _ (by
    intro x hx
    obtain ⟨y, -, rfl⟩ := List.mem_map.mp hx
    exact (Nat.mod_lt _ h0).le), evL_mod hp, evL_split w 12 l, hw]
  push_cast
  ring

theorem length_norm12 {l : List Nat} (h : l.length = 24) : (norm12 p l).length = 12 := by
  simp [norm12, fold12, length_polyAdd, h]

include hp h0 hw in
theorem norm12_eq (l : List Nat) : evL w (norm12 p l) = evL w l := by
  rw [norm12, evL_mod hp, fold12_eq hp h0 hw, fold12_eq hp h0 hw]

/-- What a number represents. -/
def valP (w : L) (n : Nat) : L := evL w (unpack baseB 12 n)

theorem valP_pack {l : List Nat} (hl : l.length = 12) (h : ∀ x ∈ l, x < baseB) : valP w (pack baseB l) = evL w l :=
  unpack_pack w baseB_pos l 12 hl.le h

include h0 in
theorem mulP_good (a b : Nat) : GoodP p (mulP p a b) :=
  ⟨_, length_norm12 (length_unpack _ _ _), fun x hx => by
    rw [norm12] at hx
    obtain ⟨y, -, rfl⟩ := List.mem_map.mp hx
    exact Nat.mod_lt _ h0, rfl⟩

include hp h0 hw in
theorem mulP_val (hB : 12 * (p * p) < baseB) {a b : Nat} (ha : GoodP p a) (hb : GoodP p b) : valP w (mulP p a b) = valP w a * valP w b := by
  obtain ⟨l, hl, hlp, rfl⟩ := ha
  obtain ⟨m, hm, hmp, rfl⟩ := hb
  have hpp := Nat.mul_le_mul h0 (le_refl p)
  have hpB : p < baseB := by omega
  have hB0 : 0 < baseB := by omega
  rw [valP_pack hl fun x hx => (hlp x hx).trans hpB, valP_pack hm fun x hx => (hmp x hx).trans hpB]
  have hn := length_norm12 (p := p) (length_unpack baseB 24 (pack baseB l * pack baseB m))
  rw [mulP, valP_pack hn fun x hx => by
    rw [norm12] at hx
    obtain ⟨y, -, rfl⟩ := List.mem_map.mp hx
    exact (Nat.mod_lt _ h0).trans hpB]
  have e : pack baseB l * pack baseB m = pack baseB (polyMul l m) := by rw [pack_eq, pack_eq, pack_eq, evL_mul]
  rw [norm12_eq hp h0 hw, e, unpack_pack w hB0, evL_mul]
  · have := length_polyMul l m
    omega
  · intro x hx
    have := polyMul_le l m (fun x hx => (hlp x hx).le) (fun x hx => (hmp x hx).le) x hx
    rw [hl] at this
    omega

end

/-- Evaluates a number before it goes on. -/
def forceN {α : Type} (n : Nat) (k : Nat → α) : α := Nat.rec (k 0) (fun m _ => k (m + 1)) n

theorem forceN_eq {α : Type} (n : Nat) (k : Nat → α) : forceN n k = k n := by cases n <;> rfl

/-- Square and multiply. -/
def powLoop (p f : Nat) : List Bool → Nat → Nat
  | [], g => g
  | b :: l, g => forceN (mulP p g g) fun h => if b then forceN (mulP p h f) (powLoop p f l) else powLoop p f l h

end GS
