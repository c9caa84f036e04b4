import Verif.Model.Bench
import Verif.Lemmas.TestsProve
import Verif.Props.Matrices

/-!
# Lemmas about the benchmarks
-/

set_option linter.unusedSectionVars false

namespace GS.Bench
open GS GS.Tests
section
variable {ρ α : Type}

theorem pushes_ok {p : Prog ρ α} {P : α → Prop} (hp : ∀ s, ∃ a s', p s = .ok (a, s') ∧ P a) (m : Nat) (s : ρ) :
    ∃ l s', pushes p m s = .ok (l, s') ∧ l.length = m ∧ ∀ a ∈ l, P a := by
  induction m generalizing s with
  | zero => exact ⟨[], s, rfl, rfl, by simp⟩
  | succ m ih =>
    have : Wp (pushes p (m + 1)) s fun l _ => l.length = m + 1 ∧ ∀ a ∈ l, P a := by
      unfold pushes
      simp only [wp_bind, wp_pure]
      refine wp_two (hp s) fun a s1 ha => wp_two (ih s1) fun l s2 hl => ?_
      refine ⟨by simp [hl.1], fun b hb => ?_⟩
      rcases List.mem_cons.mp hb with rfl | hb
      · exact ha
      · exact hl.2 b hb
    exact this

theorem wp_iter {p : Prog ρ α} {C : Prop} (hp : ∀ s, (p s).Ok ↔ C) {k : Nat} {s : ρ} :
    Wp (iter p k) s (fun _ _ => True) ↔ k = 0 ∨ C := by
  induction k generalizing s with
  | zero => simp only [iter, wp_pure, true_or]
  | succ k ih =>
    unfold iter
    rw [wp_bind]
    constructor
    · rintro ⟨a, s', h, -⟩
      exact .inr ((hp s).mp ⟨_, h⟩)
    · rintro (h | h)
      · simp at h
      · obtain ⟨⟨a, s'⟩, ha⟩ := (hp s).mpr h
        exact ⟨a, s', ha, ih.mpr (.inr h)⟩

theorem lift_ok {x : Res α} (s : ρ) : ((liftM x : Prog ρ α) s).Ok ↔ x.Ok := by
  constructor
  · rintro ⟨⟨a, s'⟩, h⟩
    obtain ⟨a, ha, -⟩ := wp_lift.mp (⟨a, s', h, trivial⟩ : Wp (liftM x) s fun _ _ => True)
    exact ⟨a, ha⟩
  · rintro ⟨a, ha⟩
    obtain ⟨b, s', h, -⟩ := (wp_lift (Q := fun _ _ => True) (s := s)).mpr ⟨a, ha, trivial⟩
    exact ⟨_, h⟩

end

section
variable {ρ F G1 G2 GT : Type} [Field F] [AddCommGroup G1] [Module F G1] [AddCommGroup G2] [Module F G2]
  [AddCommGroup GT] [Module F GT] [DecidableEq F] [DecidableEq G1] [DecidableEq G2] [DecidableEq GT]
  [Rng ρ F G1 G2]
  (e : G1 →ₗ[F] G2 →ₗ[F] GT) (randT : ρ → GT × ρ) (s : ρ) (sch : Nat → Scheduler) (k : Nat)

theorem wp_groupRand {G : Type} [SMul F G] {g : G} {s : ρ} {Q : G → ρ → Prop} :
    Wp (groupRand ρ F G1 G2 g) s Q ↔ Q ((Rng.randF (F := F) G1 G2 s).1 • g) (Rng.randF (F := F) G1 G2 s).2 := by
  unfold groupRand
  simp only [wp_bind, wp_fr, wp_pure]

theorem groupRand_ok {G : Type} [SMul F G] (g : G) (s : ρ) : ∃ a s', groupRand ρ F G1 G2 g s = .ok (a, s') ∧ True :=
  wp_groupRand.mpr trivial

theorem fr_any (s : ρ) : ∃ a s', fr F G1 G2 s = .ok (a, s') ∧ True := ⟨_, _, rfl, trivial⟩

theorem ret_small_field (par : Bool) : Passes (bench_small_field_matrix_mul ρ F G1 G2 sch par k) s := by
  rw [passes_iff]
  unfold bench_small_field_matrix_mul
  simp only [wp_bind, wp_fr]
  rw [wp_iter fun s => (lift_ok s).trans (C28_field_right_mul ..).1]
  exact .inr (.inr (.inr (by constructor <;> simp [width])))

theorem ret_large_field (m n : Nat) (par : Bool) : Passes (bench_large_field_matrix_mul ρ F G1 G2 m n sch par k) s := by
  rw [passes_iff]
  unfold bench_large_field_matrix_mul
  simp only [wp_bind]
  refine wp_two (pushes_ok (P := fun l => l.length = 2) ?_ m s) fun A s1 hA => ?_
  · intro s
    have : Wp (do let a ← fr F G1 G2; let b ← fr F G1 G2; pure [a, b]) s (fun l _ => l.length = 2) := by
      simp only [wp_bind, wp_fr, wp_pure]; rfl
    exact this
  refine wp_two (pushes_ok (P := fun l => l.length = n) ?_ 2 s1) fun B s2 hB => ?_
  · intro s
    obtain ⟨l, s', h, h1, -⟩ := pushes_ok (fr_any (F := F) (G1 := G1) (G2 := G2)) n s
    exact ⟨l, s', h, h1⟩
  rw [wp_iter fun s => (lift_ok s).trans (C28_field_right_mul ..).1]
  refine .inr ?_
  cases A with
  | nil => exact .inl rfl
  | cons a A =>
    have ha : a.length = 2 := hA.2 a (by simp)
    obtain ⟨b0, b1, rfl⟩ := List.length_eq_two.mp hB.1
    refine .inr (.inr ⟨ha, fun r hr => (hA.2 r hr).ge, fun r hr => ?_⟩)
    rw [hB.2 r hr]
    exact (hB.2 b0 (by simp)).le

theorem ret_small_B1 (par : Bool) : Passes (bench_small_B1_matrix_mul ρ F G1 G2 sch par k) s := by
  rw [passes_iff]
  unfold bench_small_B1_matrix_mul
  simp only [wp_bind, wp_fr, wp_g1, wp_groupRand]
  rw [wp_iter fun s => (lift_ok s).trans (C28_com_left_mul ..).1]
  exact .inr (.inr (.inr (by constructor <;> simp [width])))

theorem ret_B1_scalar_mul : Passes (bench_B1_scalar_mul ρ F G1 G2 k) s := by
  rw [passes_iff]
  unfold bench_B1_scalar_mul
  simp only [wp_bind, wp_fr, wp_g1]
  exact (wp_iter (C := True) fun s => ⟨fun _ => trivial, fun _ => ⟨_, rfl⟩⟩).mpr (.inr trivial)

theorem ret_B1_add : Passes (bench_B1_add ρ F G1 G2 k) s := by
  rw [passes_iff]
  unfold bench_B1_add
  simp only [wp_bind, wp_g1]
  exact (wp_iter (C := True) fun s => ⟨fun _ => trivial, fun _ => ⟨_, rfl⟩⟩).mpr (.inr trivial)

theorem ret_small_G1 : Passes (bench_small_batch_commit_G1 ρ e k) s := by
  rw [passes_iff]
  unfold bench_small_batch_commit_G1
  simp only [wp_bind, wp_crs]
  rw [wp_iter fun s => batchCommitG1_total]
  exact .inr ⟨by simp, rfl⟩

theorem ret_small_G2 : Passes (bench_small_batch_commit_G2 ρ e k) s := by
  rw [passes_iff]
  unfold bench_small_batch_commit_G2
  simp only [wp_bind, wp_crs]
  rw [wp_iter fun s => batchCommitG2_total]
  exact .inr ⟨by simp, rfl⟩

theorem ret_small_B1_scalar : Passes (bench_small_batch_commit_scalar_to_B1 ρ e k) s := by
  rw [passes_iff]
  unfold bench_small_batch_commit_scalar_to_B1
  simp only [wp_bind, wp_crs, wp_fr]
  rw [wp_iter fun s => batchCommitScalarToB1_total]
  exact .inr ⟨by simp, by simp [generateCrs, assembleCrs]⟩

theorem ret_small_B2_scalar : Passes (bench_small_batch_commit_scalar_to_B2 ρ e k) s := by
  rw [passes_iff]
  unfold bench_small_batch_commit_scalar_to_B2
  simp only [wp_bind, wp_crs, wp_fr]
  rw [wp_iter fun s => batchCommitScalarToB2_total]
  exact .inr ⟨by simp, by simp [generateCrs, assembleCrs]⟩

theorem ne_nil {α : Type} {l : List α} {m : Nat} (h : l.length = m) : l ≠ [] ↔ 1 ≤ m := by
  rw [← h, ← List.length_pos_iff]; rfl

theorem ret_large_G1 (m : Nat) : Passes (bench_large_batch_commit_G1 ρ e m k) s ↔ k = 0 ∨ 1 ≤ m := by
  rw [passes_iff]
  unfold bench_large_batch_commit_G1
  simp only [wp_bind, wp_crs]
  obtain ⟨l, s', h, hl, -⟩ := pushes_ok (groupRand_ok (F := F) (G1 := G1) (G2 := G2) (generateCrs e s).1.g1_gen) m (generateCrs e s).2
  rw [wp_ok h, wp_iter fun s => batchCommitG1_total, ne_nil hl]
  exact or_congr_right (and_iff_left rfl)

theorem ret_large_G2 (n : Nat) : Passes (bench_large_batch_commit_G2 ρ e n k) s ↔ k = 0 ∨ 1 ≤ n := by
  rw [passes_iff]
  unfold bench_large_batch_commit_G2
  simp only [wp_bind, wp_crs]
  obtain ⟨l, s', h, hl, -⟩ := pushes_ok (groupRand_ok (F := F) (G1 := G1) (G2 := G2) (generateCrs e s).1.g2_gen) n (generateCrs e s).2
  rw [wp_ok h, wp_iter fun s => batchCommitG2_total, ne_nil hl]
  exact or_congr_right (and_iff_left rfl)

theorem ret_large_B1_scalar (m : Nat) : Passes (bench_large_batch_commit_scalar_to_B1 ρ e m k) s ↔ k = 0 ∨ 1 ≤ m := by
  rw [passes_iff]
  unfold bench_large_batch_commit_scalar_to_B1
  simp only [wp_bind, wp_crs]
  obtain ⟨l, s', h, hl, -⟩ := pushes_ok (fr_any (F := F) (G1 := G1) (G2 := G2)) m (generateCrs e s).2
  rw [wp_ok h, wp_iter fun s => batchCommitScalarToB1_total, ne_nil hl]
  exact or_congr_right (and_iff_left (by simp [generateCrs, assembleCrs]))

theorem ret_large_B2_scalar (n : Nat) : Passes (bench_large_batch_commit_scalar_to_B2 ρ e n k) s ↔ k = 0 ∨ 1 ≤ n := by
  rw [passes_iff]
  unfold bench_large_batch_commit_scalar_to_B2
  simp only [wp_bind, wp_crs]
  obtain ⟨l, s', h, hl, -⟩ := pushes_ok (fr_any (F := F) (G1 := G1) (G2 := G2)) n (generateCrs e s).2
  rw [wp_ok h, wp_iter fun s => batchCommitScalarToB2_total, ne_nil hl]
  exact or_congr_right (and_iff_left (by simp [generateCrs, assembleCrs]))

theorem leftVecs_ok (crs : CRS G1 G2 GT) (m : Nat) (s : ρ) :
    ∃ l s', leftVecs (F := F) ρ crs m s = .ok (l, s') ∧ l.length = m := by
  obtain ⟨l, s', h, h1, -⟩ := pushes_ok (P := fun _ => True)
    (p := (do let x ← groupRand ρ F G1 G2 crs.g1_gen; let a ← groupRand ρ F G1 G2 crs.g1_gen; pure (x, a))) (fun s => by
      have : Wp (do let x ← groupRand ρ F G1 G2 crs.g1_gen; let a ← groupRand ρ F G1 G2 crs.g1_gen; pure (x, a)) s
        (fun _ _ => True) := by simp only [wp_bind, wp_groupRand, wp_pure]
      exact this) m s
  exact ⟨l, s', h, h1⟩

theorem rightVecs_ok (crs : CRS G1 G2 GT) (n : Nat) (s : ρ) :
    ∃ l s', rightVecs (F := F) ρ crs n s = .ok (l, s') ∧ l.length = n := by
  obtain ⟨l, s', h, h1, -⟩ := pushes_ok (P := fun _ => True)
    (p := (do let x ← groupRand ρ F G1 G2 crs.g2_gen; let a ← groupRand ρ F G1 G2 crs.g2_gen; pure (x, a))) (fun s => by
      have : Wp (do let x ← groupRand ρ F G1 G2 crs.g2_gen; let a ← groupRand ρ F G1 G2 crs.g2_gen; pure (x, a)) s
        (fun _ _ => True) := by simp only [wp_bind, wp_groupRand, wp_pure]
      exact this) n s
  exact ⟨l, s', h, h1⟩

theorem gamma_ok (m n : Nat) (s : ρ) :
    ∃ l s', pushes (pushes (fr F G1 G2) n) m s = .ok (l, s') ∧ l.length = m ∧ ∀ r ∈ l, r.length = n :=
  pushes_ok (fun s => by
    obtain ⟨l, s', h, h1, -⟩ := pushes_ok (fr_any (F := F) (G1 := G1) (G2 := G2)) n s
    exact ⟨l, s', h, h1⟩) m s

theorem ret_small_proof : Passes (bench_small_PPE_proof ρ e randT sch k) s := by
  rw [passes_iff]
  unfold bench_small_PPE_proof ppeVars ppeEqu
  simp only [wp_bind]
  refine wp_key e fun u0 u1 v0 v1 p1 p2 pt s1 => ?_
  simp only [wp_fr, wp_gt, wp_pure]
  refine wp_two (rect_batchCommitG1 (by simp) rfl _) fun xc s2 hxr => ?_
  refine wp_two (rect_batchCommitG2 (by simp) rfl _) fun yc s3 hyr => ?_
  rw [wp_iter fun s => (C36_ppe sch _ s xc yc _ _ _).1]
  exact .inr ⟨by simp, by simp, hxr, hyr, ⟨rfl, rfl, rfl, by simp⟩, rfl, rfl⟩

theorem ret_large_proof (m n : Nat) :
    Passes (bench_large_PPE_proof ρ e randT sch m n k) s ↔ 1 ≤ m ∧ 1 ≤ n ∧ (k = 0 ∨ m = n) := by
  rw [passes_iff]
  unfold bench_large_PPE_proof
  simp only [wp_bind, wp_crs]
  obtain ⟨xa, s1, h1, hl1⟩ := leftVecs_ok (F := F) (generateCrs e s).1 m (generateCrs e s).2
  rw [wp_ok h1]
  obtain ⟨yb, s2, h2, hl2⟩ := rightVecs_ok (F := F) (generateCrs e s).1 n s1
  rw [wp_ok h2]
  by_cases hm : 1 ≤ m
  · by_cases hn : 1 ≤ n
    · obtain ⟨xc, s3, h3, hxr⟩ := rect_batchCommitG1 (F := F) (x := xa.map Prod.fst) (key := (generateCrs e s).1)
        ((ne_nil (by simpa using hl1)).mpr hm) rfl s2
      rw [wp_ok h3]
      obtain ⟨yc, s4, h4, hyr⟩ := rect_batchCommitG2 (F := F) (x := yb.map Prod.fst) (key := (generateCrs e s).1)
        ((ne_nil (by simpa using hl2)).mpr hn) rfl s3
      rw [wp_ok h4]
      obtain ⟨ga, s5, h5, hg, hg'⟩ := gamma_ok (F := F) (G1 := G1) (G2 := G2) m n s4
      rw [wp_ok h5, wp_gt, wp_iter fun s => (C36_ppe sch _ s xc yc _ _ _).1]
      simp only [hm, hn, true_and]
      refine or_congr_right ⟨?_, ?_⟩
      · rintro ⟨-, -, -, -, hd, -, -⟩
        have := hd.a
        simp only [List.length_map, hl1, hl2] at this
        exact this
      · rintro rfl
        exact ⟨(ne_nil (by simpa using hl1)).mpr hm, (ne_nil (by simpa using hl2)).mpr hm, hxr, hyr,
          ⟨by simp [hl1, hl2], by simp [hl1, hl2], by simp [hg, hl1], by simpa [hl2] using hg'⟩, rfl, rfl⟩
    · simp only [hn, false_and, and_false, iff_false]
      rintro ⟨xc, s3, h3, yc, s4, h4, -⟩
      exact hn ((ne_nil (by simpa using hl2)).mp (batchCommitG2_total.mp ⟨_, h4⟩).1)
  · simp only [hm, false_and, iff_false]
    rintro ⟨xc, s3, h3, -⟩
    exact hm ((ne_nil (by simpa using hl1)).mp (batchCommitG1_total.mp ⟨_, h3⟩).1)

theorem small_verify {equ : PPE F G1 G2 GT} {x : List G1} {y : List G2} {crs : CRS G1 G2 GT} {s : ρ} (sch' : Scheduler)
    (hx : x ≠ []) (hy : y ≠ []) (hd : equ.Dims x.length y.length) (hu : crs.u.length = 2) (hv : crs.v.length = 2) :
    Wp (equ.commitAndProve sch x y crs : Prog ρ (CProof F G1 G2)) s fun cp s' =>
      Wp (iter (liftM (equ.verify e sch' cp crs) : Prog ρ Bool) k) s' fun _ _ => True := by
  obtain ⟨cp, s', b, h, h', -⟩ := C09_ppe e equ x y crs s sch sch' hx hy hd hu hv
  rw [wp_ok h, wp_iter fun s => lift_ok s]
  exact .inr ⟨_, h'⟩

theorem ret_small_verify (sch' : Scheduler) : Passes (bench_small_PPE_verify ρ e randT sch sch' k) s := by
  rw [passes_iff]
  unfold bench_small_PPE_verify ppeVars ppeEqu
  simp only [wp_bind]
  refine wp_key e fun u0 u1 v0 v1 p1 p2 pt s1 => ?_
  simp only [wp_fr, wp_gt, wp_pure]
  refine small_verify e sch k sch' (by simp) (by simp) ⟨rfl, rfl, rfl, by simp⟩ rfl rfl

theorem ret_large_verify (sch' : Scheduler) (m n : Nat) :
    Passes (bench_large_PPE_verify ρ e randT sch sch' m n k) s ↔ 1 ≤ m ∧ m = n := by
  rw [passes_iff]
  unfold bench_large_PPE_verify
  simp only [wp_bind, wp_crs]
  obtain ⟨xa, s1, h1, hl1⟩ := leftVecs_ok (F := F) (generateCrs e s).1 m (generateCrs e s).2
  rw [wp_ok h1]
  obtain ⟨yb, s2, h2, hl2⟩ := rightVecs_ok (F := F) (generateCrs e s).1 n s1
  rw [wp_ok h2]
  obtain ⟨ga, s5, h5, hg, hg'⟩ := gamma_ok (F := F) (G1 := G1) (G2 := G2) m n s2
  rw [wp_ok h5, wp_gt]
  constructor
  · rintro ⟨cp, s6, h6, -⟩
    obtain ⟨hx, -, hd, -⟩ := ((C36_commit_and_prove (F := F) sch _ _).1 _ _ _).mp ⟨_, h6⟩
    have := hd.a
    simp only [List.length_map, hl1, hl2] at this
    exact ⟨(ne_nil (by simpa using hl1)).mp hx, this⟩
  · rintro ⟨hm, rfl⟩
    obtain ⟨cp, s', b, h, h', -⟩ := C09_ppe (ρ := ρ) e ⟨xa.map Prod.snd, yb.map Prod.snd, ga, (randT s5).1⟩ (xa.map Prod.fst)
      (yb.map Prod.fst) (generateCrs e s).1 (randT s5).2 sch sch' ((ne_nil (by simpa using hl1)).mpr hm)
      ((ne_nil (by simpa using hl2)).mpr hm)
      ⟨by simp [hl1, hl2], by simp [hl1, hl2], by simp [hg, hl1], by simpa [hl2] using hg'⟩ rfl rfl
    rw [wp_ok h, wp_iter fun s => lift_ok s]
    exact .inr ⟨_, h'⟩

end
end GS.Bench
