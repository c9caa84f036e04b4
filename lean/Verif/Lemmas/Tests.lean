import Verif.Spec.Tests
import Verif.Props.Equality
import Verif.Props.Serialization
import Verif.Props.Matrices
import Mathlib.Tactic.NormNum

set_option linter.unusedSectionVars false

/-!
# Running the tests of the repository
-/

namespace GS.Tests
open GS

/-- `t` returns from `s`, with `Q`. -/
def Wp {σ α : Type} (t : Prog σ α) (s : σ) (Q : α → σ → Prop) : Prop := ∃ a s', t s = .ok (a, s') ∧ Q a s'

variable {σ ρ α β : Type}

theorem passes_iff {t : Prog σ Unit} {s : σ} : Passes t s ↔ Wp t s fun _ _ => True := by
  constructor
  · rintro ⟨s', h⟩; exact ⟨(), s', h, trivial⟩
  · rintro ⟨_, s', h, _⟩; exact ⟨s', h⟩

theorem wp_bind {t : Prog σ α} {f : α → Prog σ β} {s : σ} {Q : β → σ → Prop} :
    Wp (t >>= f) s Q ↔ Wp t s fun a s' => Wp (f a) s' Q := by
  constructor
  · rintro ⟨b, s2, h, hq⟩
    have h' : (t s >>= fun p => f p.1 p.2) = .ok (b, s2) := h
    obtain ⟨p, h1, h2⟩ := bind_ok_iff.mp h'
    exact ⟨p.1, p.2, h1, b, s2, h2, hq⟩
  · rintro ⟨a, s1, h1, b, s2, h2, hq⟩
    refine ⟨b, s2, ?_, hq⟩
    show (t s >>= fun p => f p.1 p.2) = _
    rw [h1]; exact h2

theorem wp_pure {a : α} {s : σ} {Q : α → σ → Prop} : Wp (pure a : Prog σ α) s Q ↔ Q a s :=
  ⟨by rintro ⟨_, _, ⟨⟩, h⟩; exact h, fun h => ⟨_, _, rfl, h⟩⟩

theorem wp_ok {t : Prog σ α} {s : σ} {a : α} {s' : σ} (ht : t s = .ok (a, s')) {Q : α → σ → Prop} :
    Wp t s Q ↔ Q a s' :=
  ⟨by rintro ⟨_, _, h, hq⟩; rw [ht] at h; cases h; exact hq, fun h => ⟨_, _, ht, h⟩⟩

theorem wp_lift {x : Res α} {s : σ} {Q : α → σ → Prop} :
    Wp (liftM x : Prog σ α) s Q ↔ ∃ a, x = .ok a ∧ Q a s := by
  cases x with
  | ok a => exact ⟨by rintro ⟨_, _, ⟨⟩, h⟩; exact ⟨_, rfl, h⟩, by rintro ⟨_, ⟨⟩, h⟩; exact ⟨_, _, rfl, h⟩⟩
  | error p => exact ⟨by rintro ⟨_, _, ⟨⟩, h⟩, by rintro ⟨_, ⟨⟩, h⟩⟩

theorem wp_lift_ok {a : α} {s : σ} {Q : α → σ → Prop} : Wp (liftM (.ok a : Res α) : Prog σ α) s Q ↔ Q a s := by
  rw [wp_lift]; simp

theorem wp_assert {b : Bool} {s : σ} {Q : Unit → σ → Prop} :
    Wp (liftM (assert b) : Prog σ Unit) s Q ↔ b = true ∧ Q () s := by
  cases b
  · simp [wp_lift, assert]
  · exact wp_lift_ok.trans (by simp)

theorem wp_on1 {t : Prog ρ α} {s : ρ × ρ} {Q : α → ρ × ρ → Prop} :
    Wp (on1 t) s Q ↔ Wp t s.1 fun a s1 => Q a (s1, s.2) := by
  constructor
  · rintro ⟨b, s2, h, hq⟩
    obtain ⟨p, h1, h2⟩ := bind_ok_iff.mp h
    cases h2
    exact ⟨p.1, p.2, h1, hq⟩
  · rintro ⟨a, s1, h1, hq⟩
    exact ⟨a, _, by simp [on1, h1], hq⟩

theorem wp_on2 {t : Prog ρ α} {s : ρ × ρ} {Q : α → ρ × ρ → Prop} :
    Wp (on2 t) s Q ↔ Wp t s.2 fun a s2 => Q a (s.1, s2) := by
  constructor
  · rintro ⟨b, s2, h, hq⟩
    obtain ⟨p, h1, h2⟩ := bind_ok_iff.mp h
    cases h2
    exact ⟨p.1, p.2, h1, hq⟩
  · rintro ⟨a, s1, h1, hq⟩
    exact ⟨a, _, by simp [on2, h1], hq⟩

section
variable {F G1 G2 GT : Type} [Field F] [AddCommGroup G1] [Module F G1] [AddCommGroup G2] [Module F G2]
  [AddCommGroup GT] [Module F GT] [Rng ρ F G1 G2]

omit [AddCommGroup G1] [Module F G1] [AddCommGroup G2] [Module F G2] [Field F] in
theorem wp_fr {s : ρ} {Q : F → ρ → Prop} :
    Wp (fr F G1 G2) s Q ↔ Q (Rng.randF G1 G2 s).1 (Rng.randF (F := F) G1 G2 s).2 := wp_ok rfl
omit [AddCommGroup G1] [Module F G1] [AddCommGroup G2] [Module F G2] [Field F] in
theorem wp_g1 {s : ρ} {Q : G1 → ρ → Prop} :
    Wp (g1 F G1 G2) s Q ↔ Q (Rng.randG1 F G2 s).1 (Rng.randG1 (G1 := G1) F G2 s).2 := wp_ok rfl
omit [AddCommGroup G1] [Module F G1] [AddCommGroup G2] [Module F G2] [Field F] in
theorem wp_g2 {s : ρ} {Q : G2 → ρ → Prop} :
    Wp (g2 F G1 G2) s Q ↔ Q (Rng.randG2 F G1 s).1 (Rng.randG2 (G2 := G2) F G1 s).2 := wp_ok rfl
omit [AddCommGroup GT] in
theorem wp_gt {randT : ρ → GT × ρ} {s : ρ} {Q : GT → ρ → Prop} :
    Wp (gt randT) s Q ↔ Q (randT s).1 (randT s).2 := wp_ok rfl
theorem wp_crs {e : G1 →ₗ[F] G2 →ₗ[F] GT} {s : ρ} {Q : CRS G1 G2 GT → ρ → Prop} :
    Wp (crsOf e) s Q ↔ Q (generateCrs e s).1 (generateCrs e s).2 := wp_ok rfl

theorem u_length (e : G1 →ₗ[F] G2 →ₗ[F] GT) (s : ρ) : (generateCrs e s).1.u.length = 2 := rfl
theorem v_length (e : G1 →ₗ[F] G2 →ₗ[F] GT) (s : ρ) : (generateCrs e s).1.v.length = 2 := rfl
end

theorem assert_eq_ok {b : Bool} {u : Unit} : assert b = .ok u ↔ b = true := by cases b <;> simp [assert]

theorem assert_true : assert true = .ok () := rfl

/-- The round trip tests pass if encoding is inverted by decoding and the comparison is correct. -/
theorem serde_ok {c : Codec α} {eq : α → α → Bool} {a : α} (heq : eq a a = true)
    (h : ∀ m, c.de m .Yes (c.ser m a ++ []) = .ok (a, [])) : serde c eq a = .ok () := by
  have h1 := h .Yes
  have h2 := h .No
  rw [List.append_nil] at h1 h2
  simp [serde, h1, h2, unwrap, heq, assert]

theorem assertDims_ok {M : Matrix α} {m n : Nat} (h : M.length = m ∧ ∀ r ∈ M, r.length = n) : assertDims M m n = .ok () := by
  have h2 : (collect (fun r : List α => assert (r.length == n)) M).Ok := by
    rw [collect_isOk_iff]
    intro r hr
    exact ⟨(), by simp [assert, h.2 r hr]⟩
  obtain ⟨l, hl⟩ := h2
  simp only [assertDims, hl, h.1, beq_self_eq_true, assert_true, ok_bind, pure_eq_ok]

section
variable {σ ρ F G G1 G2 GT : Type} [Field F] [AddCommGroup G] [Module F G] [AddCommGroup G1] [Module F G1] [AddCommGroup G2] [Module F G2]
  [AddCommGroup GT] [Module F GT] [DecidableEq F] [DecidableEq G] [DecidableEq G1] [DecidableEq G2] [DecidableEq GT] 

theorem wp_draw {g : Prog ρ G} (hg : ∀ s, (g s).Ok) {s : ρ} {Q : G → ρ → Prop} (h : ∀ a s', Q a s') : Wp g s Q := by
  obtain ⟨p, hp⟩ := hg s
  exact ⟨p.1, p.2, hp, h _ _⟩

theorem wp_randCom {g : Prog ρ G} (hg : ∀ s, (g s).Ok) {s : ρ} {Q : Com G → ρ → Prop} (h : ∀ a s', Q a s') :
    Wp (randCom g) s Q := by
  unfold randCom
  simp only [wp_bind, wp_pure]
  exact wp_draw hg fun _ _ => wp_draw hg fun _ _ => h _ _

theorem wp_randComT {g : Prog ρ GT} (hg : ∀ s, (g s).Ok) {s : ρ} {Q : ComT GT → ρ → Prop} (h : ∀ a s', Q a s') :
    Wp (randComT g) s Q := by
  unfold randComT
  simp only [wp_bind, wp_pure]
  exact wp_draw hg fun _ _ => wp_draw hg fun _ _ => wp_draw hg fun _ _ => wp_draw hg fun _ _ => h _ _

section
variable {g : Prog ρ G} (hg : ∀ s, (g s).Ok) (s : ρ)
include hg

theorem pass_B_add_zero : Passes (test_B_add_zero g) s := by
  rw [passes_iff]
  unfold test_B_add_zero
  simp only [wp_bind, wp_assert, and_true]
  refine wp_randCom hg fun a s' => ⟨(Com.eq_iff _ _).mpr rfl, (Com.eq_iff _ _).mpr rfl, (Com.eq_iff _ _).mpr ?_⟩
  exact (add_zero a).symm

theorem pass_B_add : Passes (test_B_add g) s := by
  rw [passes_iff]
  unfold test_B_add
  simp only [wp_bind, wp_assert, and_true]
  exact wp_randCom hg fun a _ => wp_randCom hg fun b _ => ⟨(Com.eq_iff _ _).mpr rfl, (Com.eq_iff _ _).mpr (add_comm a b)⟩

theorem pass_B_sum : Passes (test_B_sum g) s := by
  rw [passes_iff]
  unfold test_B_sum
  simp only [wp_bind, wp_assert, and_true]
  refine wp_randCom hg fun a _ => wp_randCom hg fun b _ => wp_randCom hg fun c _ => (Com.eq_iff _ _).mpr ?_
  simp [rustSum]

theorem pass_B_neg : Passes (test_B_neg g) s := by
  rw [passes_iff]
  unfold test_B_neg
  simp only [wp_bind, wp_assert, and_true]
  exact wp_randCom hg fun a _ => (Com.eq_iff _ _).mpr (add_neg_cancel a)

theorem pass_B_sub : Passes (test_B_sub g) s := by
  rw [passes_iff]
  unfold test_B_sub
  simp only [wp_bind, wp_assert, and_true]
  exact wp_randCom hg fun a _ => wp_randCom hg fun b _ =>
    ⟨(Com.eq_iff _ _).mpr rfl, (Com.eq_iff _ _).mpr (neg_sub b a).symm⟩

theorem pass_B_scalar_mul {fr : Prog ρ F} (hf : ∀ s, (fr s).Ok) : Passes (test_B_scalar_mul g fr) s := by
  rw [passes_iff]
  unfold test_B_scalar_mul
  simp only [wp_bind, wp_assert, and_true]
  exact wp_randCom hg fun a _ => wp_draw hf fun r _ => (Com.eq_iff _ _).mpr rfl

theorem pass_B_serde {c : Codec G} (h : c.Lawful) (hv : ∀ a, c.Valid a) : Passes (test_B_serde g c) s := by
  rw [passes_iff]
  unfold test_B_serde
  simp only [wp_bind, wp_lift]
  exact wp_randCom hg fun a _ => ⟨(), serde_ok ((Com.eq_iff _ _).mpr rfl)
    fun m => C41_com h m .Yes a (fun _ => ⟨hv _, hv _⟩) [], trivial⟩
end

section
variable {g : Prog ρ GT} (hg : ∀ s, (g s).Ok) (s : ρ)
include hg

theorem pass_BT_add_zero : Passes (test_BT_add_zero g) s := by
  rw [passes_iff]
  unfold test_BT_add_zero
  simp only [wp_bind, wp_assert, and_true]
  refine wp_randComT hg fun a s' => ⟨(ComT.eq_iff _ _).mpr rfl, (ComT.eq_iff _ _).mpr rfl, (ComT.eq_iff _ _).mpr ?_⟩
  exact (add_zero a).symm

theorem pass_BT_add : Passes (test_BT_add g) s := by
  rw [passes_iff]
  unfold test_BT_add
  simp only [wp_bind, wp_assert, and_true]
  exact wp_randComT hg fun a _ => wp_randComT hg fun b _ =>
    ⟨(ComT.eq_iff _ _).mpr rfl, (ComT.eq_iff _ _).mpr (add_comm a b)⟩

theorem pass_BT_sum : Passes (test_BT_sum g) s := by
  rw [passes_iff]
  unfold test_BT_sum
  simp only [wp_bind, wp_assert, and_true]
  refine wp_randComT hg fun a _ => wp_randComT hg fun b _ => wp_randComT hg fun c _ => (ComT.eq_iff _ _).mpr ?_
  simp [rustSum]

theorem pass_BT_neg : Passes (test_BT_neg g) s := by
  rw [passes_iff]
  unfold test_BT_neg
  simp only [wp_bind, wp_assert, and_true]
  exact wp_randComT hg fun a _ => (ComT.eq_iff _ _).mpr (add_neg_cancel a)

theorem pass_BT_sub : Passes (test_BT_sub g) s := by
  rw [passes_iff]
  unfold test_BT_sub
  simp only [wp_bind, wp_assert, and_true]
  exact wp_randComT hg fun a _ => wp_randComT hg fun b _ =>
    ⟨(ComT.eq_iff _ _).mpr rfl, (ComT.eq_iff _ _).mpr (neg_sub b a).symm⟩
end

/-! ### Matrices -/

theorem field_right {sch : Scheduler} {b : Bool} {self rhs M : Matrix F} (h : FieldMat.rightMul sch self rhs false = .ok M) :
    FieldMat.rightMul sch self rhs b = .ok M := by
  rw [FieldMat.rightMul_iff] at h ⊢; exact h

theorem field_left {sch : Scheduler} {b : Bool} {self lhs M : Matrix F} (h : FieldMat.leftMul sch self lhs false = .ok M) :
    FieldMat.leftMul sch self lhs b = .ok M := by
  rw [FieldMat.leftMul_iff] at h ⊢; exact h

theorem pass_col_vec_to_vec : test_col_vec_to_vec F = .ok () := by
  have h : colVecToVec ([[1], [2], [3]] : Matrix F) = .ok [1, 2, 3] := rfl
  simp only [test_col_vec_to_vec, h, ok_bind, assert_eq_ok, C72_vec]

theorem pass_vec_to_col_vec : test_vec_to_col_vec F = .ok () := by
  simp [test_vec_to_col_vec, vecToColVec, assert, C72_matrix]

theorem pass_field_left_entry (sch : Nat → Scheduler) : test_field_matrix_left_mul_entry F sch = .ok () := by
  have h : FieldMat.leftMul (sch 0) [[4], [5], [6]] ([[1, 2, 3]] : Matrix F) false =
    .ok [[0 + 4 * 1 + 5 * 2 + 6 * 3]] := rfl
  simp only [test_field_matrix_left_mul_entry, h, ok_bind]
  rw [assertDims_ok (by simp), ok_bind, assert_eq_ok, C72_matrix]
  norm_num

theorem pass_field_right_entry (sch : Nat → Scheduler) : test_field_matrix_right_mul_entry F sch = .ok () := by
  have h : FieldMat.rightMul (sch 0) ([[1, 2, 3]] : Matrix F) [[4], [5], [6]] false =
    .ok [[0 + 1 * 4 + 2 * 5 + 3 * 6]] := rfl
  simp only [test_field_matrix_right_mul_entry, h, ok_bind]
  rw [assertDims_ok (by simp), ok_bind, assert_eq_ok, C72_matrix]
  norm_num

theorem pass_field_left (sch : Nat → Scheduler) (b : Bool) : test_field_matrix_left_mul F sch b = .ok () := by
  have h : FieldMat.leftMul (sch 0) [[7, 8, 9, 10], [11, 12, 13, 14], [15, 16, 17, 18]] ([[1, 2, 3], [4, 5, 6]] : Matrix F) false =
    .ok [[0 + 7 * 1 + 11 * 2 + 15 * 3, 0 + 8 * 1 + 12 * 2 + 16 * 3, 0 + 9 * 1 + 13 * 2 + 17 * 3, 0 + 10 * 1 + 14 * 2 + 18 * 3],
      [0 + 7 * 4 + 11 * 5 + 15 * 6, 0 + 8 * 4 + 12 * 5 + 16 * 6, 0 + 9 * 4 + 13 * 5 + 17 * 6, 0 + 10 * 4 + 14 * 5 + 18 * 6]] := rfl
  simp only [test_field_matrix_left_mul, field_left h, ok_bind]
  rw [assertDims_ok (by simp), ok_bind, assert_eq_ok, C72_matrix]
  norm_num

theorem pass_field_right (sch : Nat → Scheduler) (b : Bool) : test_field_matrix_right_mul F sch b = .ok () := by
  have h : FieldMat.rightMul (sch 0) ([[1, 2, 3], [4, 5, 6]] : Matrix F) [[7, 8, 9, 10], [11, 12, 13, 14], [15, 16, 17, 18]] false =
    .ok [[0 + 1 * 7 + 2 * 11 + 3 * 15, 0 + 1 * 8 + 2 * 12 + 3 * 16, 0 + 1 * 9 + 2 * 13 + 3 * 17, 0 + 1 * 10 + 2 * 14 + 3 * 18],
      [0 + 4 * 7 + 5 * 11 + 6 * 15, 0 + 4 * 8 + 5 * 12 + 6 * 16, 0 + 4 * 9 + 5 * 13 + 6 * 17, 0 + 4 * 10 + 5 * 14 + 6 * 18]] := rfl
  simp only [test_field_matrix_right_mul, field_right h, ok_bind]
  rw [assertDims_ok (by simp), ok_bind, assert_eq_ok, C72_matrix]
  norm_num

theorem pass_field_scalar_mul : test_field_matrix_scalar_mul F = .ok () := by
  have h : FieldMat.scalarMul [[1, 2, 3], [4, 5, 6], [7, 8, 9]] (3 : F) =
    .ok [[1 * 3, 2 * 3, 3 * 3], [4 * 3, 5 * 3, 6 * 3], [7 * 3, 8 * 3, 9 * 3]] := rfl
  simp only [test_field_matrix_scalar_mul, h, ok_bind, assert_eq_ok, C72_matrix]
  norm_num

theorem pass_field_transpose_vec : test_field_transpose_vec F = .ok () := by
  have h : FieldMat.transpose ([[1, 2, 3]] : Matrix F) = .ok [[1], [2], [3]] := rfl
  simp only [test_field_transpose_vec, h, ok_bind]
  rw [assertDims_ok (by simp), ok_bind, assert_eq_ok, C72_matrix]

theorem pass_field_transpose : test_field_matrix_transpose F = .ok () := by
  have h : FieldMat.transpose ([[1, 2, 3], [4, 5, 6], [7, 8, 9]] : Matrix F) = .ok [[1, 4, 7], [2, 5, 8], [3, 6, 9]] := rfl
  simp only [test_field_matrix_transpose, h, ok_bind]
  rw [assertDims_ok (by simp), ok_bind, assert_eq_ok, C72_matrix]

theorem pass_field_neg : test_field_matrix_neg F = .ok () := by
  have h : FieldMat.neg ([[1, 2, 3], [4, 5, 6], [7, 8, 9]] : Matrix F) = .ok [[-1, -2, -3], [-4, -5, -6], [-7, -8, -9]] := rfl
  simp only [test_field_matrix_neg, h, ok_bind]
  rw [assertDims_ok (by simp), ok_bind, assert_eq_ok, C72_matrix]

theorem pass_field_add : test_field_matrix_add F = .ok () := by
  have h : FieldMat.add ([[1, 2, 3], [4, 5, 6], [7, 8, 9]] : Matrix F) [[10, 11, 12], [13, 14, 15], [16, 17, 18]] =
    .ok [[1 + 10, 2 + 11, 3 + 12], [4 + 13, 5 + 14, 6 + 15], [7 + 16, 8 + 17, 9 + 18]] := rfl
  have h' : FieldMat.add ([[10, 11, 12], [13, 14, 15], [16, 17, 18]] : Matrix F) [[1, 2, 3], [4, 5, 6], [7, 8, 9]] =
    .ok [[10 + 1, 11 + 2, 12 + 3], [13 + 4, 14 + 5, 15 + 6], [16 + 7, 17 + 8, 18 + 9]] := rfl
  simp only [test_field_matrix_add, h, h', ok_bind]
  rw [assertDims_ok (by simp), ok_bind, bind_ok_iff]
  refine ⟨(), ?_, ?_⟩ <;> rw [assert_eq_ok, C72_matrix] <;> norm_num

theorem coms_eq_iff (a b : Matrix (Com G)) : vecEq (vecEq Com.eq) a b = true ↔ a = b := vecEq_iff (fun a b => C72_coms a b) a b

theorem neg_emb (a : G) (n : Nat) : -emb F a n = embNeg F a n := by ext <;> simp [emb, embNeg]

theorem add_emb (a : G) (m n : Nat) : emb F a m + emb F a n = emb F a (m + n) := by
  ext
  · simp [emb]
  · simp [emb, add_smul]

section
variable {g : Prog ρ G} (hg : ∀ s, (g s).Ok) (s : ρ)
include hg

theorem pass_B1_left_entry (sch : Nat → Scheduler) : Passes (test_B1_matrix_left_mul_entry F sch g) s := by
  rw [passes_iff]
  unfold test_B1_matrix_left_mul_entry
  simp only [wp_bind, wp_assert, and_true, coms_eq_iff]
  refine wp_draw hg fun a _ => ?_
  have h : ComMat.leftMul (sch 0) [[emb F a 4], [emb F a 5], [emb F a 6]] ([[1, 2, 3]] : Matrix F) false =
    .ok [[0 + (1 : F) • emb F a 4 + (2 : F) • emb F a 5 + (3 : F) • emb F a 6]] := rfl
  rw [h, wp_lift_ok, assertDims_ok (by simp), wp_lift_ok]
  simp only [List.cons.injEq, and_true]
  ext
  · simp [emb]
  · simp [emb]; module

theorem pass_B1_right_entry (sch : Nat → Scheduler) : Passes (test_B1_matrix_right_mul_entry F sch g) s := by
  rw [passes_iff]
  unfold test_B1_matrix_right_mul_entry
  simp only [wp_bind, wp_assert, and_true, coms_eq_iff]
  refine wp_draw hg fun a _ => ?_
  have h : ComMat.rightMul (sch 0) [[⟨0, a⟩, emb F a 2, emb F a 3]] ([[4], [5], [6]] : Matrix F) false =
    .ok [[0 + (4 : F) • (⟨0, a⟩ : Com G) + (5 : F) • emb F a 2 + (6 : F) • emb F a 3]] := rfl
  rw [h, wp_lift_ok, assertDims_ok (by simp), wp_lift_ok]
  simp only [List.cons.injEq, and_true]
  ext
  · simp [emb]
  · simp [emb]; module

theorem pass_B_matrix_scalar_mul : Passes (test_B_matrix_scalar_mul F g) s := by
  rw [passes_iff]
  unfold test_B_matrix_scalar_mul
  simp only [wp_bind, wp_assert, and_true, coms_eq_iff]
  refine wp_draw hg fun a _ => ?_
  have h : ComMat.scalarMul (List.replicate 3 (List.replicate 3 (emb F a 1))) (3 : F) =
    .ok (List.replicate 3 (List.replicate 3 ((3 : F) • emb F a 1))) := rfl
  have h2 : (3 : F) • emb F a 1 = emb F a 3 := by ext <;> simp [emb]
  rw [h, wp_lift_ok, h2]

theorem pass_B_transpose_vec : Passes (test_B_transpose_vec F g) s := by
  rw [passes_iff]
  unfold test_B_transpose_vec
  simp only [wp_bind, wp_assert, and_true, coms_eq_iff]
  refine wp_draw hg fun a _ => ?_
  have h : ComMat.transpose [[⟨0, a⟩, emb F a 2, emb F a 3]] = .ok [[⟨0, a⟩], [emb F a 2], [emb F a 3]] := rfl
  rw [h, wp_lift_ok, assertDims_ok (by simp), wp_lift_ok]

theorem pass_B_matrix_transpose : Passes (test_B_matrix_transpose F g) s := by
  rw [passes_iff]
  unfold test_B_matrix_transpose
  simp only [wp_bind, wp_assert, and_true, coms_eq_iff]
  refine wp_draw hg fun a _ => ?_
  have h : ComMat.transpose [[⟨0, a⟩, emb F a 2, emb F a 3], [emb F a 4, emb F a 5, emb F a 6], [emb F a 7, emb F a 8, emb F a 9]] =
    .ok [[⟨0, a⟩, emb F a 4, emb F a 7], [emb F a 2, emb F a 5, emb F a 8], [emb F a 3, emb F a 6, emb F a 9]] := rfl
  rw [h, wp_lift_ok, assertDims_ok (by simp), wp_lift_ok]

theorem pass_B_matrix_neg : Passes (test_B_matrix_neg F g) s := by
  rw [passes_iff]
  unfold test_B_matrix_neg
  simp only [wp_bind, wp_assert, and_true, coms_eq_iff]
  refine wp_draw hg fun a _ => ?_
  have h : ComMat.neg [[⟨0, a⟩, emb F a 2, emb F a 3], [emb F a 4, emb F a 5, emb F a 6], [emb F a 7, emb F a 8, emb F a 9]] =
    .ok [[-(⟨0, a⟩ : Com G), -emb F a 2, -emb F a 3], [-emb F a 4, -emb F a 5, -emb F a 6], [-emb F a 7, -emb F a 8, -emb F a 9]] := rfl
  have h1 : -(⟨0, a⟩ : Com G) = ⟨0, -a⟩ := by ext <;> simp
  rw [h, wp_lift_ok, assertDims_ok (by simp), wp_lift_ok, h1]
  simp only [neg_emb]

theorem pass_B_matrix_add : Passes (test_B_matrix_add F g) s := by
  rw [passes_iff]
  unfold test_B_matrix_add
  simp only [wp_bind, wp_assert, and_true, coms_eq_iff]
  refine wp_draw hg fun a _ => ?_
  have h1 : (⟨0, a⟩ : Com G) = emb F a 1 := by ext <;> simp [emb]
  have h : ComMat.add [[emb F a 1, emb F a 2, emb F a 3], [emb F a 4, emb F a 5, emb F a 6], [emb F a 7, emb F a 8, emb F a 9]]
    [[emb F a 10, emb F a 11, emb F a 12], [emb F a 13, emb F a 14, emb F a 15], [emb F a 16, emb F a 17, emb F a 18]] =
    .ok [[emb F a 1 + emb F a 10, emb F a 2 + emb F a 11, emb F a 3 + emb F a 12],
      [emb F a 4 + emb F a 13, emb F a 5 + emb F a 14, emb F a 6 + emb F a 15],
      [emb F a 7 + emb F a 16, emb F a 8 + emb F a 17, emb F a 9 + emb F a 18]] := rfl
  have h' : ComMat.add
    [[emb F a 10, emb F a 11, emb F a 12], [emb F a 13, emb F a 14, emb F a 15], [emb F a 16, emb F a 17, emb F a 18]]
    [[emb F a 1, emb F a 2, emb F a 3], [emb F a 4, emb F a 5, emb F a 6], [emb F a 7, emb F a 8, emb F a 9]] =
    .ok [[emb F a 10 + emb F a 1, emb F a 11 + emb F a 2, emb F a 12 + emb F a 3],
      [emb F a 13 + emb F a 4, emb F a 14 + emb F a 5, emb F a 15 + emb F a 6],
      [emb F a 16 + emb F a 7, emb F a 17 + emb F a 8, emb F a 18 + emb F a 9]] := rfl
  rw [h1, h, wp_lift_ok, h', wp_lift_ok, assertDims_ok (by simp), wp_lift_ok]
  simp only [add_emb, and_self]
end
end
end GS.Tests
