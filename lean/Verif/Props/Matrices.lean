import Verif.Spec.Matrix
import Verif.Lemmas.Entrywise
import Verif.Lemmas.Matrix
import Verif.Props.Example
import Mathlib.Data.Matrix.Mul
import Mathlib.Data.Matrix.Basic
import Mathlib.LinearAlgebra.Matrix.Notation
import Mathlib.Algebra.Module.BigOperators

/-!
# Matrix operations (C22, C24-C29)

The reference is Mathlib's matrix algebra.  `rows A` is the list-of-rows form of the mathematical matrix `A`;
`C24_rect_iff_rows` says that these are exactly the rectangular lists of rows.
-/

set_option linter.unusedSectionVars false

namespace GS
variable {α F G : Type} [Field F] [AddCommGroup G] [Module F G]

theorem sameOutcome_of {x y : Res α} (h : ∀ a, x = .ok a ↔ y = .ok a) : SameOutcome x y := by
  refine ⟨h, ?_⟩
  have h1 : x.Ok ↔ y.Ok := exists_congr h
  have h2 := not_congr h1
  rw [not_ok_iff, not_ok_iff] at h2
  exact h2

theorem rows_eq {m n : Nat} (A : _root_.Matrix (Fin m) (Fin n) α) : rows A = matOf A := rfl

theorem panics_iff_not_ok {x : Res α} : x.Panics ↔ ¬ x.Ok := not_ok_iff.symm

theorem width_of_firstRowLen {M : Matrix α} {n : Nat} : firstRowLen M = .ok n ↔ M ≠ [] ∧ width M = n := by
  cases M <;> simp [width, firstRowLen]

theorem isEmptyMat_iff_width {M : Matrix α} : isEmptyMat M = true ↔ width M = 0 := by
  cases M <;> simp [width, isEmptyMat]

/-! ## C22: parallel and sequential products agree -/

/-- Commitment matrices, `right_mul`: the parallel result under any schedule is the sequential result. -/
theorem C22_com_right_mul (sch sch' : Scheduler) (self : Matrix (Com G)) (rhs : Matrix F) :
    SameOutcome (ComMat.rightMul sch self rhs true) (ComMat.rightMul sch' self rhs false) :=
  sameOutcome_of fun _ => by rw [ComMat.rightMul_iff, ComMat.rightMul_iff]

theorem C22_com_left_mul (sch sch' : Scheduler) (self : Matrix (Com G)) (lhs : Matrix F) :
    SameOutcome (ComMat.leftMul sch self lhs true) (ComMat.leftMul sch' self lhs false) :=
  sameOutcome_of fun _ => by rw [ComMat.leftMul_iff, ComMat.leftMul_iff]

theorem C22_field_right_mul (sch sch' : Scheduler) (self rhs : Matrix F) :
    SameOutcome (FieldMat.rightMul sch self rhs true) (FieldMat.rightMul sch' self rhs false) :=
  sameOutcome_of fun _ => by rw [FieldMat.rightMul_iff, FieldMat.rightMul_iff]

theorem C22_field_left_mul (sch sch' : Scheduler) (self lhs : Matrix F) :
    SameOutcome (FieldMat.leftMul sch self lhs true) (FieldMat.leftMul sch' self lhs false) :=
  sameOutcome_of fun _ => by rw [FieldMat.leftMul_iff, FieldMat.leftMul_iff]

/-- Any two schedules agree as well (also for a mix of modes). -/
theorem C22_schedule_independent (sch sch' : Scheduler) (b b' : Bool) (A : Matrix (Com G)) (R L : Matrix F)
    (X Y : Matrix F) :
    SameOutcome (ComMat.rightMul sch A R b) (ComMat.rightMul sch' A R b') ∧
    SameOutcome (ComMat.leftMul sch A L b) (ComMat.leftMul sch' A L b') ∧
    SameOutcome (FieldMat.rightMul sch X Y b) (FieldMat.rightMul sch' X Y b') ∧
    SameOutcome (FieldMat.leftMul sch X Y b) (FieldMat.leftMul sch' X Y b') := by
  refine ⟨?_, ?_, ?_, ?_⟩ <;> refine sameOutcome_of fun _ => ?_
  · rw [ComMat.rightMul_iff, ComMat.rightMul_iff]
  · rw [ComMat.leftMul_iff, ComMat.leftMul_iff]
  · rw [FieldMat.rightMul_iff, FieldMat.rightMul_iff]
  · rw [FieldMat.leftMul_iff, FieldMat.leftMul_iff]

/-- The schedule that runs the tasks backwards. -/
def backwards : Scheduler := ⟨fun m n => (grid m n).reverse, fun m n => List.reverse_perm _⟩
/-- The schedule that runs the tasks in row-major order. -/
def forwards : Scheduler := ⟨fun m n => grid m n, fun _ _ => .refl _⟩

/-- There are different schedules, and they do run the tasks in different orders. -/
example : backwards.order 1 2 ≠ forwards.order 1 2 := by decide
example : FieldMat.rightMul backwards [[(1 : Ex.K), 2]] [[3], [4]] true = .ok [[4]] := by decide

/-! ## C24: products -/

theorem C24_rect_iff_rows {m n : Nat} {M : Matrix α} :
    Rect m n M ↔ ∃ A : _root_.Matrix (Fin m) (Fin n) α, M = rows A := rect_iff

theorem C24_field_right_mul {m k n : Nat} (hm : 0 < m) (hk : 0 < k) (hn : 0 < n) (sch : Scheduler) (par : Bool)
    (A : _root_.Matrix (Fin m) (Fin k) F) (B : _root_.Matrix (Fin k) (Fin n) F) :
    FieldMat.rightMul sch (rows A) (rows B) par = .ok (rows (A * B)) :=
  FieldMat.rightMul_matOf hm hk hn sch A B par

theorem C24_field_left_mul {m k n : Nat} (hm : 0 < m) (hk : 0 < k) (hn : 0 < n) (sch : Scheduler) (par : Bool)
    (A : _root_.Matrix (Fin m) (Fin k) F) (B : _root_.Matrix (Fin k) (Fin n) F) :
    FieldMat.leftMul sch (rows B) (rows A) par = .ok (rows (A * B)) :=
  FieldMat.leftMul_matOf hm hk hn sch A B par

/-- Scalar matrix times matrix of commitment group elements. -/
theorem C24_com_left_mul {m k n : Nat} (hm : 0 < m) (hk : 0 < k) (hn : 0 < n) (sch : Scheduler) (par : Bool)
    (A : _root_.Matrix (Fin m) (Fin k) F) (B : _root_.Matrix (Fin k) (Fin n) (Com G)) :
    ComMat.leftMul sch (rows B) (rows A) par =
      .ok (rows (_root_.Matrix.of fun i j => ∑ l, (B l j).scalarMul (A i l))) :=
  ComMat.leftMul_matOf hm hk hn sch A B par

/-- Matrix of commitment group elements times scalar matrix. -/
theorem C24_com_right_mul {m k n : Nat} (hm : 0 < m) (hk : 0 < k) (hn : 0 < n) (sch : Scheduler) (par : Bool)
    (A : _root_.Matrix (Fin m) (Fin k) (Com G)) (B : _root_.Matrix (Fin k) (Fin n) F) :
    ComMat.rightMul sch (rows A) (rows B) par =
      .ok (rows (_root_.Matrix.of fun i j => ∑ l, (A i l).scalarMul (B l j))) :=
  ComMat.rightMul_matOf hm hk hn sch A B par

example : rows (!![1, 2; 3, 4; 5, 6] : _root_.Matrix (Fin 3) (Fin 2) Ex.K) = [[1, 2], [3, 4], [5, 6]] := by decide

/-! ## C26: transposition -/

theorem C26_field_transpose {m n : Nat} (hm : 0 < m) (A : _root_.Matrix (Fin m) (Fin n) F) :
    FieldMat.transpose (rows A) = .ok (rows A.transpose) := FieldMat.transpose_matOf hm A

theorem C26_com_transpose {m n : Nat} (hm : 0 < m) (A : _root_.Matrix (Fin m) (Fin n) (Com G)) :
    ComMat.transpose (rows A) = .ok (rows A.transpose) := ComMat.transpose_matOf hm A

theorem C26_field_involution {m n : Nat} (hm : 0 < m) (hn : 0 < n) {A : Matrix F} (hA : Rect m n A) :
    (do FieldMat.transpose (← FieldMat.transpose A)) = .ok A := by
  obtain ⟨A, rfl⟩ := C24_rect_iff_rows.mp hA
  rw [C26_field_transpose hm, ok_bind, C26_field_transpose hn, Matrix.transpose_transpose]

theorem C26_com_involution {m n : Nat} (hm : 0 < m) (hn : 0 < n) {A : Matrix (Com G)} (hA : Rect m n A) :
    (do ComMat.transpose (← ComMat.transpose A)) = .ok A := by
  obtain ⟨A, rfl⟩ := C24_rect_iff_rows.mp hA
  rw [C26_com_transpose hm, ok_bind, C26_com_transpose hn, Matrix.transpose_transpose]

theorem transposeG_panics {A : Matrix α} : (transposeG A).Panics ↔ A = [] ∨ ∃ r ∈ A, width A < r.length := by
  rw [panics_iff_not_ok]
  have : (transposeG A).Ok ↔ ∃ n, firstRowLen A = .ok n ∧ ∀ r ∈ A, r.length ≤ n := by
    constructor
    · rintro ⟨M, h⟩
      obtain ⟨n, h1, h2, -⟩ := transposeG_iff.mp h
      exact ⟨n, h1, h2⟩
    · rintro ⟨n, h1, h2⟩
      exact ⟨_, transposeG_iff.mpr ⟨n, h1, h2, rfl⟩⟩
  rw [this]
  simp only [width_of_firstRowLen]
  constructor
  · intro h
    by_contra hc
    push Not at hc
    exact h ⟨_, ⟨hc.1, rfl⟩, hc.2⟩
  · rintro (rfl | ⟨r, hr, hlt⟩) ⟨n, ⟨hne, hw⟩, hn⟩
    · exact hne rfl
    · have := hn r hr; omega

theorem C26_field_panics (A : Matrix F) :
    (FieldMat.transpose A).Panics ↔ A = [] ∨ ∃ r ∈ A, width A < r.length := transposeG_panics
theorem C26_com_panics (A : Matrix (Com G)) :
    (ComMat.transpose A).Panics ↔ A = [] ∨ ∃ r ∈ A, width A < r.length := transposeG_panics

example : FieldMat.transpose [[(1 : Ex.K), 2, 3], [4, 5, 6]] = .ok [[1, 4], [2, 5], [3, 6]] := by decide
/-- A ragged matrix that panics. -/
example : (FieldMat.transpose [[(1 : Ex.K)], [4, 5]]).Panics := (C26_field_panics _).mpr (by decide)

/-! ## C27: entrywise operations -/

theorem C27_field_add {m n : Nat} (hm : 0 < m) (A B : _root_.Matrix (Fin m) (Fin n) F) :
    FieldMat.add (rows A) (rows B) = .ok (rows (A + B)) := FieldMat.add_matOf hm A B
theorem C27_com_add {m n : Nat} (hm : 0 < m) (A B : _root_.Matrix (Fin m) (Fin n) (Com G)) :
    ComMat.add (rows A) (rows B) = .ok (rows (A + B)) := ComMat.add_matOf hm A B
theorem C27_field_neg {m n : Nat} (A : _root_.Matrix (Fin m) (Fin n) F) :
    FieldMat.neg (rows A) = .ok (rows (-A)) := FieldMat.neg_matOf A
theorem C27_com_neg {m n : Nat} (A : _root_.Matrix (Fin m) (Fin n) (Com G)) :
    ComMat.neg (rows A) = .ok (rows (-A)) := ComMat.neg_matOf A
theorem C27_field_scalar_mul {m n : Nat} (hm : 0 < m) (A : _root_.Matrix (Fin m) (Fin n) F) (r : F) :
    FieldMat.scalarMul (rows A) r = .ok (rows (A.map fun a => a * r)) := by
  rw [FieldMat.scalarMul_eq]; exact mapG_matOf hm A
theorem C27_com_scalar_mul {m n : Nat} (hm : 0 < m) (A : _root_.Matrix (Fin m) (Fin n) (Com G)) (r : F) :
    ComMat.scalarMul (rows A) r = .ok (rows (A.map fun a => a.scalarMul r)) := by
  rw [ComMat.scalarMul_eq]; exact mapG_matOf hm A

example : FieldMat.add [[(1 : Ex.K), 2]] [[3, 6]] = .ok [[4, 1]] := by decide

/-! ## C25: laws -/

/-- `(A B) C = A (B C)` for field matrices, whatever the modes and schedules of the four products. -/
theorem C25_field_assoc {m k l n : Nat} (hm : 0 < m) (hk : 0 < k) (hl : 0 < l) (hn : 0 < n)
    (s1 s2 s3 s4 : Scheduler) (p1 p2 p3 p4 : Bool) {A B C : Matrix F}
    (hA : Rect m k A) (hB : Rect k l B) (hC : Rect l n C) :
    BothReturn (do FieldMat.rightMul s2 (← FieldMat.rightMul s1 A B p1) C p2)
      (do FieldMat.rightMul s4 A (← FieldMat.rightMul s3 B C p3) p4) := by
  obtain ⟨A, rfl⟩ := C24_rect_iff_rows.mp hA
  obtain ⟨B, rfl⟩ := C24_rect_iff_rows.mp hB
  obtain ⟨C, rfl⟩ := C24_rect_iff_rows.mp hC
  refine ⟨rows (A * B * C), ?_, ?_⟩
  · rw [C24_field_right_mul hm hk hl, ok_bind, C24_field_right_mul hm hl hn]
  · rw [C24_field_right_mul hk hl hn, ok_bind, C24_field_right_mul hm hk hn, Matrix.mul_assoc]

/-- `(A B) C = A (B C)` for field matrices `A`, `B` and a commitment matrix `C`. -/
theorem C25_field_field_com_assoc {m k l n : Nat} (hm : 0 < m) (hk : 0 < k) (hl : 0 < l) (hn : 0 < n)
    (s1 s2 s3 s4 : Scheduler) (p1 p2 p3 p4 : Bool) {A B : Matrix F} {C : Matrix (Com G)}
    (hA : Rect m k A) (hB : Rect k l B) (hC : Rect l n C) :
    BothReturn (do ComMat.leftMul s2 C (← FieldMat.rightMul s1 A B p1) p2)
      (do ComMat.leftMul s4 (← ComMat.leftMul s3 C B p3) A p4) := by
  obtain ⟨A, rfl⟩ := C24_rect_iff_rows.mp hA
  obtain ⟨B, rfl⟩ := C24_rect_iff_rows.mp hB
  obtain ⟨C, rfl⟩ := C24_rect_iff_rows.mp hC
  refine ⟨_, by rw [C24_field_right_mul hm hk hl, ok_bind, C24_com_left_mul hm hl hn], ?_⟩
  rw [C24_com_left_mul hk hl hn, ok_bind, C24_com_left_mul hm hk hn]
  congr 2
  ext1 i j
  simp only [Com.scalarMul_eq, Matrix.of_apply, Matrix.mul_apply, Finset.smul_sum, Finset.sum_smul, smul_smul]
  rw [Finset.sum_comm]

/-- `(A C) B = A (C B)` for field matrices `A`, `B` and a commitment matrix `C` between them. -/
theorem C25_field_com_field_assoc {m k l n : Nat} (hm : 0 < m) (hk : 0 < k) (hl : 0 < l) (hn : 0 < n)
    (s1 s2 s3 s4 : Scheduler) (p1 p2 p3 p4 : Bool) {A B : Matrix F} {C : Matrix (Com G)}
    (hA : Rect m k A) (hC : Rect k l C) (hB : Rect l n B) :
    BothReturn (do ComMat.rightMul s2 (← ComMat.leftMul s1 C A p1) B p2)
      (do ComMat.leftMul s4 (← ComMat.rightMul s3 C B p3) A p4) := by
  obtain ⟨A, rfl⟩ := C24_rect_iff_rows.mp hA
  obtain ⟨B, rfl⟩ := C24_rect_iff_rows.mp hB
  obtain ⟨C, rfl⟩ := C24_rect_iff_rows.mp hC
  refine ⟨_, by rw [C24_com_left_mul hm hk hl, ok_bind, C24_com_right_mul hm hl hn], ?_⟩
  rw [C24_com_right_mul hk hl hn, ok_bind, C24_com_left_mul hm hk hn]
  congr 2
  ext1 i j
  simp only [Com.scalarMul_eq, Matrix.of_apply, Finset.smul_sum, smul_smul]
  rw [Finset.sum_comm]
  simp only [mul_comm]

/-- `A (B + C) = A B + A C` for field matrices. -/
theorem C25_field_left_distrib {m k n : Nat} (hm : 0 < m) (hk : 0 < k) (hn : 0 < n)
    (s1 s2 s3 : Scheduler) (p1 p2 p3 : Bool) {A B C : Matrix F}
    (hA : Rect m k A) (hB : Rect k n B) (hC : Rect k n C) :
    BothReturn (do FieldMat.rightMul s1 A (← FieldMat.add B C) p1)
      (do FieldMat.add (← FieldMat.rightMul s2 A B p2) (← FieldMat.rightMul s3 A C p3)) := by
  obtain ⟨A, rfl⟩ := C24_rect_iff_rows.mp hA
  obtain ⟨B, rfl⟩ := C24_rect_iff_rows.mp hB
  obtain ⟨C, rfl⟩ := C24_rect_iff_rows.mp hC
  refine ⟨rows (A * (B + C)), ?_, ?_⟩
  · rw [C27_field_add hk, ok_bind, C24_field_right_mul hm hk hn]
  · rw [C24_field_right_mul hm hk hn, ok_bind, C24_field_right_mul hm hk hn, ok_bind, C27_field_add hm,
      Matrix.mul_add]

/-- `(A + B) C = A C + B C` for field matrices. -/
theorem C25_field_right_distrib {m k n : Nat} (hm : 0 < m) (hk : 0 < k) (hn : 0 < n)
    (s1 s2 s3 : Scheduler) (p1 p2 p3 : Bool) {A B C : Matrix F}
    (hA : Rect m k A) (hB : Rect m k B) (hC : Rect k n C) :
    BothReturn (do FieldMat.rightMul s1 (← FieldMat.add A B) C p1)
      (do FieldMat.add (← FieldMat.rightMul s2 A C p2) (← FieldMat.rightMul s3 B C p3)) := by
  obtain ⟨A, rfl⟩ := C24_rect_iff_rows.mp hA
  obtain ⟨B, rfl⟩ := C24_rect_iff_rows.mp hB
  obtain ⟨C, rfl⟩ := C24_rect_iff_rows.mp hC
  refine ⟨rows ((A + B) * C), ?_, ?_⟩
  · rw [C27_field_add hm, ok_bind, C24_field_right_mul hm hk hn]
  · rw [C24_field_right_mul hm hk hn, ok_bind, C24_field_right_mul hm hk hn, ok_bind, C27_field_add hm,
      Matrix.add_mul]

/-- `A (B + C) = A B + A C` for a field matrix `A` and commitment matrices `B`, `C`. -/
theorem C25_com_left_distrib {m k n : Nat} (hm : 0 < m) (hk : 0 < k) (hn : 0 < n)
    (s1 s2 s3 : Scheduler) (p1 p2 p3 : Bool) {A : Matrix F} {B C : Matrix (Com G)}
    (hA : Rect m k A) (hB : Rect k n B) (hC : Rect k n C) :
    BothReturn (do ComMat.leftMul s1 (← ComMat.add B C) A p1)
      (do ComMat.add (← ComMat.leftMul s2 B A p2) (← ComMat.leftMul s3 C A p3)) := by
  obtain ⟨A, rfl⟩ := C24_rect_iff_rows.mp hA
  obtain ⟨B, rfl⟩ := C24_rect_iff_rows.mp hB
  obtain ⟨C, rfl⟩ := C24_rect_iff_rows.mp hC
  refine ⟨_, by rw [C27_com_add hk, ok_bind, C24_com_left_mul hm hk hn], ?_⟩
  rw [C24_com_left_mul hm hk hn, ok_bind, C24_com_left_mul hm hk hn, ok_bind, C27_com_add hm]
  congr 2
  ext1 i j
  simp only [Matrix.add_apply, Matrix.of_apply, Com.scalarMul_eq, smul_add, Finset.sum_add_distrib]

/-- `(A + B) C = A C + B C` for field matrices `A`, `B` and a commitment matrix `C`. -/
theorem C25_com_right_distrib {m k n : Nat} (hm : 0 < m) (hk : 0 < k) (hn : 0 < n)
    (s1 s2 s3 : Scheduler) (p1 p2 p3 : Bool) {A B : Matrix F} {C : Matrix (Com G)}
    (hA : Rect m k A) (hB : Rect m k B) (hC : Rect k n C) :
    BothReturn (do ComMat.leftMul s1 C (← FieldMat.add A B) p1)
      (do ComMat.add (← ComMat.leftMul s2 C A p2) (← ComMat.leftMul s3 C B p3)) := by
  obtain ⟨A, rfl⟩ := C24_rect_iff_rows.mp hA
  obtain ⟨B, rfl⟩ := C24_rect_iff_rows.mp hB
  obtain ⟨C, rfl⟩ := C24_rect_iff_rows.mp hC
  refine ⟨_, by rw [C27_field_add hm, ok_bind, C24_com_left_mul hm hk hn], ?_⟩
  rw [C24_com_left_mul hm hk hn, ok_bind, C24_com_left_mul hm hk hn, ok_bind, C27_com_add hm]
  congr 2
  ext1 i j
  simp only [Matrix.add_apply, Matrix.of_apply, Com.scalarMul_eq, add_smul, Finset.sum_add_distrib]

/-- `(A B)ᵀ = Bᵀ Aᵀ` for field matrices. -/
theorem C25_field_transpose_mul {m k n : Nat} (hm : 0 < m) (hk : 0 < k) (hn : 0 < n)
    (s1 s2 : Scheduler) (p1 p2 : Bool) {A B : Matrix F} (hA : Rect m k A) (hB : Rect k n B) :
    BothReturn (do FieldMat.transpose (← FieldMat.rightMul s1 A B p1))
      (do FieldMat.rightMul s2 (← FieldMat.transpose B) (← FieldMat.transpose A) p2) := by
  obtain ⟨A, rfl⟩ := C24_rect_iff_rows.mp hA
  obtain ⟨B, rfl⟩ := C24_rect_iff_rows.mp hB
  refine ⟨rows ((A * B).transpose), ?_, ?_⟩
  · rw [C24_field_right_mul hm hk hn, ok_bind, C26_field_transpose hm]
  · rw [C26_field_transpose hk, ok_bind, C26_field_transpose hm, ok_bind, Matrix.transpose_mul,
      C24_field_right_mul hn hk hm]

/-- `(A C)ᵀ = Cᵀ Aᵀ` for a field matrix `A` and a commitment matrix `C`. -/
theorem C25_com_transpose_mul {m k n : Nat} (hm : 0 < m) (hk : 0 < k) (hn : 0 < n)
    (s1 s2 : Scheduler) (p1 p2 : Bool) {A : Matrix F} {C : Matrix (Com G)} (hA : Rect m k A) (hC : Rect k n C) :
    BothReturn (do ComMat.transpose (← ComMat.leftMul s1 C A p1))
      (do ComMat.rightMul s2 (← ComMat.transpose C) (← FieldMat.transpose A) p2) := by
  obtain ⟨A, rfl⟩ := C24_rect_iff_rows.mp hA
  obtain ⟨C, rfl⟩ := C24_rect_iff_rows.mp hC
  refine ⟨_, by rw [C24_com_left_mul hm hk hn, ok_bind, C26_com_transpose hm], ?_⟩
  rw [C26_com_transpose hk, ok_bind, C26_field_transpose hm, ok_bind, C24_com_right_mul hn hk hm]
  rfl

/-- `A + (-A) = 0` and `(-A) + A = 0`: `neg` is the additive inverse (field matrices). -/
theorem C25_field_neg {m n : Nat} (hm : 0 < m) {A : Matrix F} (hA : Rect m n A) :
    (do FieldMat.add A (← FieldMat.neg A)) = .ok (rows (0 : _root_.Matrix (Fin m) (Fin n) F)) ∧
    (do FieldMat.add (← FieldMat.neg A) A) = .ok (rows (0 : _root_.Matrix (Fin m) (Fin n) F)) := by
  obtain ⟨A, rfl⟩ := C24_rect_iff_rows.mp hA
  rw [C27_field_neg, ok_bind, ok_bind, C27_field_add hm, C27_field_add hm, add_neg_cancel, neg_add_cancel]
  exact ⟨rfl, rfl⟩

/-- `neg` is the additive inverse (commitment matrices). -/
theorem C25_com_neg {m n : Nat} (hm : 0 < m) {A : Matrix (Com G)} (hA : Rect m n A) :
    (do ComMat.add A (← ComMat.neg A)) = .ok (rows (0 : _root_.Matrix (Fin m) (Fin n) (Com G))) ∧
    (do ComMat.add (← ComMat.neg A) A) = .ok (rows (0 : _root_.Matrix (Fin m) (Fin n) (Com G))) := by
  obtain ⟨A, rfl⟩ := C24_rect_iff_rows.mp hA
  rw [C27_com_neg, ok_bind, ok_bind, C27_com_add hm, C27_com_add hm, add_neg_cancel, neg_add_cancel]
  exact ⟨rfl, rfl⟩

/-- `(r A) B = r (A B)` and `A (r B) = r (A B)` for field matrices. -/
theorem C25_field_scalar_mul {m k n : Nat} (hm : 0 < m) (hk : 0 < k) (hn : 0 < n)
    (s1 s2 : Scheduler) (p1 p2 : Bool) (r : F) {A B : Matrix F} (hA : Rect m k A) (hB : Rect k n B) :
    BothReturn (do FieldMat.rightMul s1 (← FieldMat.scalarMul A r) B p1)
      (do FieldMat.scalarMul (← FieldMat.rightMul s2 A B p2) r) ∧
    BothReturn (do FieldMat.rightMul s1 A (← FieldMat.scalarMul B r) p1)
      (do FieldMat.scalarMul (← FieldMat.rightMul s2 A B p2) r) := by
  obtain ⟨A, rfl⟩ := C24_rect_iff_rows.mp hA
  obtain ⟨B, rfl⟩ := C24_rect_iff_rows.mp hB
  have h : (do FieldMat.scalarMul (← FieldMat.rightMul s2 (rows A) (rows B) p2) r) =
      .ok (rows ((A * B).map fun a => a * r)) := by
    rw [C24_field_right_mul hm hk hn, ok_bind, C27_field_scalar_mul hm]
  refine ⟨⟨_, ?_, h⟩, ⟨_, ?_, h⟩⟩
  · rw [C27_field_scalar_mul hm, ok_bind, C24_field_right_mul hm hk hn]
    congr 2
    ext1 i j
    simp only [Matrix.mul_apply, Matrix.map_apply, Finset.sum_mul, mul_right_comm]
  · rw [C27_field_scalar_mul hk, ok_bind, C24_field_right_mul hm hk hn]
    congr 2
    ext1 i j
    simp only [Matrix.mul_apply, Matrix.map_apply, Finset.sum_mul, mul_assoc]

/-- `A (r C) = r (A C)` and `(r A) C = r (A C)` for a field matrix `A` and a commitment matrix `C`. -/
theorem C25_com_scalar_mul {m k n : Nat} (hm : 0 < m) (hk : 0 < k) (hn : 0 < n)
    (s1 s2 : Scheduler) (p1 p2 : Bool) (r : F) {A : Matrix F} {C : Matrix (Com G)} (hA : Rect m k A) (hC : Rect k n C) :
    BothReturn (do ComMat.leftMul s1 (← ComMat.scalarMul C r) A p1)
      (do ComMat.scalarMul (← ComMat.leftMul s2 C A p2) r) ∧
    BothReturn (do ComMat.leftMul s1 C (← FieldMat.scalarMul A r) p1)
      (do ComMat.scalarMul (← ComMat.leftMul s2 C A p2) r) := by
  obtain ⟨A, rfl⟩ := C24_rect_iff_rows.mp hA
  obtain ⟨C, rfl⟩ := C24_rect_iff_rows.mp hC
  have h : (do ComMat.scalarMul (← ComMat.leftMul s2 (rows C) (rows A) p2) r) =
      .ok (rows (Matrix.map (Matrix.of fun i j => ∑ l, (C l j).scalarMul (A i l)) fun a => a.scalarMul r)) := by
    rw [C24_com_left_mul hm hk hn, ok_bind, C27_com_scalar_mul hm]
  refine ⟨⟨_, ?_, h⟩, ⟨_, ?_, h⟩⟩
  · rw [C27_com_scalar_mul hk, ok_bind, C24_com_left_mul hm hk hn]
    congr 2
    ext1 i j
    simp only [Matrix.of_apply, Matrix.map_apply, Com.scalarMul_eq, Finset.smul_sum, smul_smul, mul_comm]
  · rw [C27_field_scalar_mul hm, ok_bind, C24_com_left_mul hm hk hn]
    congr 2
    ext1 i j
    simp only [Matrix.of_apply, Matrix.map_apply, Com.scalarMul_eq, Finset.smul_sum, smul_smul, mul_comm]

/-! ## C28: panic domains -/

/-- The inputs on which `add` returns. -/
def AddDom (A B : Matrix α) : Prop :=
  A ≠ [] ∧ A.length = B.length ∧ width A = width B ∧ (∀ r ∈ A, width A ≤ r.length) ∧ ∀ r ∈ B, width A ≤ r.length

/-- The inputs on which a product `L R` returns; `[]` if one has no columns. -/
def MulDom {β : Type} (L : Matrix α) (R : Matrix β) : Prop :=
  width L = 0 ∨ width R = 0 ∨
    (width L = R.length ∧ (∀ r ∈ L, R.length ≤ r.length) ∧ ∀ r ∈ R, width R ≤ r.length)

theorem addG_ok_iff_dom [Add α] {A B : Matrix α} : (addG A B).Ok ↔ AddDom A B := by
  rw [addG_isOk, AddDom]
  simp only [width_of_firstRowLen]
  constructor
  · rintro ⟨h, n, ⟨hA, rfl⟩, ⟨hB, hw⟩, h1, h2⟩
    exact ⟨hA, h, hw.symm, h1, h2⟩
  · rintro ⟨hA, h, hw, h1, h2⟩
    refine ⟨h, _, ⟨hA, rfl⟩, ⟨?_, hw.symm⟩, h1, h2⟩
    rintro rfl
    exact hA (List.length_eq_zero_iff.mp h)

theorem isProduct_ok_iff_dom {β γ : Type} [AddCommMonoid γ] {L : Matrix α} {R : Matrix β} {term : α → β → γ} :
    (∃ M, IsProduct L R term M) ↔ MulDom L R := by
  simp only [MulDom]
  by_cases hL : width L = 0
  · simp only [hL, true_or, iff_true]
    exact ⟨[], .inl ⟨.inl (isEmptyMat_iff_width.mpr hL), rfl⟩⟩
  by_cases hR : width R = 0
  · simp only [hR, true_or, or_true, iff_true]
    exact ⟨[], .inl ⟨.inr (isEmptyMat_iff_width.mpr hR), rfl⟩⟩
  have hLne : L ≠ [] := by rintro rfl; exact hL rfl
  have hRne : R ≠ [] := by rintro rfl; exact hR rfl
  simp only [hL, hR, false_or]
  constructor
  · rintro ⟨M, ⟨h | h, -⟩ | ⟨dim, n, f, g, h1, h2, h3, h4, h5, h6, h7, -⟩⟩
    · exact absurd (isEmptyMat_iff_width.mp h) hL
    · exact absurd (isEmptyMat_iff_width.mp h) hR
    · obtain ⟨-, rfl⟩ := width_of_firstRowLen.mp h4
      obtain ⟨-, rfl⟩ := width_of_firstRowLen.mp h5
      refine ⟨h3.symm, ?_, ?_⟩
      · rw [h3]; exact (exists_reads_iff rfl h1).mp ⟨f, h6⟩
      · exact (exists_reads_iff h3 h2).mp ⟨g, h7⟩
  · rintro ⟨hd, h1, h2⟩
    have hw : 0 < R.length := List.length_pos_iff.mpr hRne
    obtain ⟨f, hf⟩ := (exists_reads_iff (M := L) rfl hw).mpr h1
    obtain ⟨g, hg⟩ := (exists_reads_iff (M := R) rfl (Nat.pos_of_ne_zero hR)).mpr h2
    exact ⟨_, .inr ⟨_, _, f, g, hw, Nat.pos_of_ne_zero hR, rfl, width_of_firstRowLen.mpr ⟨hLne, hd⟩,
      width_of_firstRowLen.mpr ⟨hRne, rfl⟩, hf, hg, rfl⟩⟩

theorem ok_panics {x : Res α} {P : Prop} (h : x.Ok ↔ P) : (x.Ok ↔ P) ∧ (x.Panics ↔ ¬ P) :=
  ⟨h, panics_iff_not_ok.trans (not_congr h)⟩

theorem C28_field_add (A B : Matrix F) :
    ((FieldMat.add A B).Ok ↔ AddDom A B) ∧ ((FieldMat.add A B).Panics ↔ ¬ AddDom A B) := ok_panics addG_ok_iff_dom
theorem C28_com_add (A B : Matrix (Com G)) :
    ((ComMat.add A B).Ok ↔ AddDom A B) ∧ ((ComMat.add A B).Panics ↔ ¬ AddDom A B) := ok_panics addG_ok_iff_dom

theorem mapG_ok_iff {op : α → α} {A : Matrix α} : (mapG op A).Ok ↔ A ≠ [] ∧ ∀ r ∈ A, width A ≤ r.length := by
  rw [mapG_isOk]
  simp only [width_of_firstRowLen]
  constructor
  · rintro ⟨n, ⟨h, rfl⟩, h2⟩; exact ⟨h, h2⟩
  · rintro ⟨h, h2⟩; exact ⟨_, ⟨h, rfl⟩, h2⟩

theorem C28_field_scalar_mul (A : Matrix F) (r : F) :
    ((FieldMat.scalarMul A r).Ok ↔ A ≠ [] ∧ ∀ row ∈ A, width A ≤ row.length) ∧
    ((FieldMat.scalarMul A r).Panics ↔ ¬ (A ≠ [] ∧ ∀ row ∈ A, width A ≤ row.length)) := ok_panics mapG_ok_iff
theorem C28_com_scalar_mul (A : Matrix (Com G)) (r : F) :
    ((ComMat.scalarMul A r).Ok ↔ A ≠ [] ∧ ∀ row ∈ A, width A ≤ row.length) ∧
    ((ComMat.scalarMul A r).Panics ↔ ¬ (A ≠ [] ∧ ∀ row ∈ A, width A ≤ row.length)) := ok_panics mapG_ok_iff

/-- `neg` never panics and acts entrywise on every matrix, ragged ones included. -/
theorem C28_field_neg (A : Matrix F) : FieldMat.neg A = .ok (A.map fun r => r.map fun a => -a) := negG_eq A
theorem C28_com_neg (A : Matrix (Com G)) : ComMat.neg A = .ok (A.map fun r => r.map fun a => -a) := negG_eq A

theorem C28_field_right_mul (sch : Scheduler) (A B : Matrix F) (par : Bool) :
    ((FieldMat.rightMul sch A B par).Ok ↔ MulDom A B) ∧ ((FieldMat.rightMul sch A B par).Panics ↔ ¬ MulDom A B) :=
  ok_panics ((exists_congr fun _ => FieldMat.rightMul_iff).trans isProduct_ok_iff_dom)
theorem C28_field_left_mul (sch : Scheduler) (A B : Matrix F) (par : Bool) :
    ((FieldMat.leftMul sch A B par).Ok ↔ MulDom B A) ∧ ((FieldMat.leftMul sch A B par).Panics ↔ ¬ MulDom B A) :=
  ok_panics ((exists_congr fun _ => FieldMat.leftMul_iff).trans isProduct_ok_iff_dom)
theorem C28_com_right_mul (sch : Scheduler) (A : Matrix (Com G)) (B : Matrix F) (par : Bool) :
    ((ComMat.rightMul sch A B par).Ok ↔ MulDom A B) ∧ ((ComMat.rightMul sch A B par).Panics ↔ ¬ MulDom A B) :=
  ok_panics ((exists_congr fun _ => ComMat.rightMul_iff).trans isProduct_ok_iff_dom)
theorem C28_com_left_mul (sch : Scheduler) (A : Matrix (Com G)) (B : Matrix F) (par : Bool) :
    ((ComMat.leftMul sch A B par).Ok ↔ MulDom B A) ∧ ((ComMat.leftMul sch A B par).Panics ↔ ¬ MulDom B A) :=
  ok_panics ((exists_congr fun _ => ComMat.leftMul_iff).trans isProduct_ok_iff_dom)

/-- A product with an operand without columns is `[]`. -/
theorem C28_empty_product (sch : Scheduler) (A B : Matrix F) (C : Matrix (Com G)) (par : Bool) :
    (width A = 0 ∨ width B = 0 → FieldMat.rightMul sch A B par = .ok [] ∧ FieldMat.leftMul sch B A par = .ok []) ∧
    (width C = 0 ∨ width B = 0 → ComMat.rightMul sch C B par = .ok []) ∧
    (width A = 0 ∨ width C = 0 → ComMat.leftMul sch C A par = .ok []) := by
  simp only [FieldMat.rightMul_iff, FieldMat.leftMul_iff, ComMat.rightMul_iff, ComMat.leftMul_iff,
    ← isEmptyMat_iff_width]
  exact ⟨fun h => ⟨(isProduct_of_empty h).mpr rfl, (isProduct_of_empty h).mpr rfl⟩,
    fun h => (isProduct_of_empty h).mpr rfl, fun h => (isProduct_of_empty h).mpr rfl⟩

/-- Both sides of the domain are inhabited, also by ragged matrices. -/
example : MulDom [[(1 : Ex.K), 2], [3, 4, 5]] [[(1 : Ex.K)], [2, 3]] := .inr (.inr (by decide))
example : ¬ MulDom [[(1 : Ex.K), 2]] [[(1 : Ex.K)]] := by rintro (h | h | h) <;> revert h <;> decide

/-! ## C29: column vectors -/

theorem C29_vec_col_vec (v : List α) : colVecToVec (vecToColVec v) = .ok v := colVecToVec_vecToColVec v

theorem C29_col_vec {m : Nat} {M : Matrix α} (hM : Rect m 1 M) :
    (do pure (vecToColVec (← colVecToVec M))) = .ok M := by
  obtain ⟨A, rfl⟩ := rect_iff.mp hM
  rw [colVecToVec_matOf, ok_bind, vecToColVec_ofFn]
  simp only [pure_eq_ok]
  congr 2
  funext i j
  rw [Subsingleton.elim j 0]

/-- `vec_to_col_vec` gives an `n × 1` matrix. -/
theorem C29_rect (v : List α) : Rect v.length 1 (vecToColVec v) := by
  refine ⟨by simp, ?_⟩
  simp [vecToColVec]

theorem C29_panics (M : Matrix α) : (colVecToVec M).Panics ↔ M.length ≠ 1 ∧ [] ∈ M := by
  rw [panics_iff_not_ok, colVecToVec]
  split
  · next h =>
    rw [idx_ok_iff]
    simp [h]
  · next h =>
    rw [collect_isOk_iff]
    simp only [idx_ok_iff, h, ne_eq, not_false_eq_true, true_and]
    push Not
    constructor
    · rintro ⟨r, hr, hl⟩
      have : r = [] := List.length_eq_zero_iff.mp (by omega)
      exact this ▸ hr
    · intro hr; exact ⟨[], hr, by simp⟩

/-- With a single row, the whole row is returned (also when it does not have one entry). -/
theorem C29_single_row (r : List α) : colVecToVec [r] = .ok r := rfl

example : vecToColVec [(1 : Ex.K), 2] = [[1], [2]] := rfl

/-! ### Instances -/

namespace Ex

def mat7 : Matrix K := [[1, 2], [3, 4], [5, 6]]
def mat7' : Matrix K := [[1, 2, 3, 0], [0, 1, 4, 2]]
def mat7'' : Matrix K := [[1], [6], [2], [3]]
def com7 : Matrix (Com K) := [[⟨1, 2⟩, ⟨3, 4⟩], [⟨5, 6⟩, ⟨0, 1⟩]]
def com7' : Matrix (Com K) := [[⟨1, 2⟩], [⟨3, 4⟩], [⟨5, 6⟩], [⟨0, 1⟩]]

theorem mat7_rect : Rect 3 2 mat7 := by unfold Rect; decide
theorem mat7'_rect : Rect 2 4 mat7' := by unfold Rect; decide
theorem mat7''_rect : Rect 4 1 mat7'' := by unfold Rect; decide
theorem com7_rect : Rect 2 2 com7 := by unfold Rect; decide
theorem com7'_rect : Rect 4 1 com7' := by unfold Rect; decide

variable (s : Scheduler) (p p' : Bool)

example := C24_field_right_mul (m := 3) (k := 2) (n := 2) (by decide) (by decide) (by decide) s p !![1, 2; 3, 4; 5, 6] (!![1, 2; 0, 1] : _root_.Matrix _ _ K)
example := C24_field_left_mul (m := 3) (k := 2) (n := 2) (by decide) (by decide) (by decide) s p !![1, 2; 3, 4; 5, 6] (!![1, 2; 0, 1] : _root_.Matrix _ _ K)
example := C24_com_left_mul (m := 3) (k := 2) (n := 1) (by decide) (by decide) (by decide) s p (!![1, 2; 3, 4; 5, 6] : _root_.Matrix _ _ K) (!![⟨1, 2⟩; ⟨3, 4⟩] : _root_.Matrix _ _ (Com K))
example := C24_com_right_mul (m := 1) (k := 2) (n := 2) (by decide) (by decide) (by decide) s p (!![⟨1, 2⟩, ⟨3, 4⟩] : _root_.Matrix _ _ (Com K)) (!![1, 2; 3, 4] : _root_.Matrix _ _ K)
example := C25_field_assoc (by decide) (by decide) (by decide) (by decide) s backwards s forwards p p' p p' mat7_rect mat7'_rect mat7''_rect
example := C25_field_field_com_assoc (by decide) (by decide) (by decide) (by decide) s backwards s forwards p p' p p' mat7_rect mat7'_rect com7'_rect
example := C25_field_com_field_assoc (by decide) (by decide) (by decide) (by decide) s backwards s forwards p p' p p' mat7_rect com7_rect mat7'_rect
example := C25_field_left_distrib (by decide) (by decide) (by decide) s backwards forwards p p' p mat7_rect mat7'_rect mat7'_rect
example := C25_field_right_distrib (by decide) (by decide) (by decide) s backwards forwards p p' p mat7_rect mat7_rect mat7'_rect
example := C25_com_left_distrib (by decide) (by decide) (by decide) s backwards forwards p p' p mat7_rect com7_rect com7_rect
example := C25_com_right_distrib (by decide) (by decide) (by decide) s backwards forwards p p' p mat7_rect mat7_rect com7_rect
example := C25_field_transpose_mul (by decide) (by decide) (by decide) s backwards p p' mat7_rect mat7'_rect
example := C25_com_transpose_mul (by decide) (by decide) (by decide) s backwards p p' mat7_rect com7_rect
example := C25_field_neg (by decide) mat7_rect
example := C25_com_neg (by decide) com7_rect
example := C25_field_scalar_mul (by decide) (by decide) (by decide) s backwards p p' 3 mat7_rect mat7'_rect
example := C25_com_scalar_mul (by decide) (by decide) (by decide) s backwards p p' 3 mat7_rect com7_rect
example := C26_field_transpose (m := 3) (n := 2) (by decide) (!![1, 2; 3, 4; 5, 6] : _root_.Matrix _ _ K)
example := C26_com_transpose (m := 1) (n := 2) (by decide) (!![⟨1, 2⟩, ⟨3, 4⟩] : _root_.Matrix _ _ (Com K))
example := C26_field_involution (by decide) (by decide) mat7_rect
example := C26_com_involution (by decide) (by decide) com7'_rect
example := C27_field_add (m := 2) (n := 2) (by decide) !![1, 2; 3, 4] (!![1, 2; 0, 1] : _root_.Matrix _ _ K)
example := C27_com_add (m := 1) (n := 2) (by decide) !![⟨1, 2⟩, ⟨3, 4⟩] (!![⟨0, 2⟩, ⟨3, 1⟩] : _root_.Matrix _ _ (Com K))
example := C27_field_scalar_mul (m := 2) (n := 2) (by decide) (!![1, 2; 0, 1] : _root_.Matrix _ _ K) 3
example := C27_com_scalar_mul (m := 1) (n := 2) (by decide) (!![⟨1, 2⟩, ⟨3, 4⟩] : _root_.Matrix _ _ (Com K)) (3 : K)
example := C29_col_vec com7'_rect

end Ex

end GS
