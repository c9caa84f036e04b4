import Verif.Spec.Seeded
import Verif.Props.Randomness
import Verif.Props.Sxdh
import Verif.Props.ComGame
import Verif.Props.Example

/-!
# C99: what a bad random number generator costs

The scalars come from a generator started from a uniform seed (`Verif/Spec/Seeded.lean`) instead of being uniform.
-/

set_option linter.unusedSectionVars false

open scoped BigOperators

namespace GS
variable {F G1 G2 GT : Type} [Field F] [AddCommGroup G1] [Module F G1] [AddCommGroup G2] [Module F G2]
  [AddCommGroup GT] [Module F GT] {e : G1 →ₗ[F] G2 →ₗ[F] GT} {crs : CRS G1 G2 GT} {ρ Sd : Type} [Rng ρ F G1 G2]

theorem ofFn_tapeOf (N : Nat) (s : ρ) : List.ofFn (tapeOf F G1 G2 N s) = (draws (F := F) G1 G2 N s).1 := by
  apply List.ext_getElem
  · rw [List.length_ofFn, draws_length]
  · intro i h1 h2
    simp [tapeOf, List.getD, h2]

theorem draws_ofFn_tapeOf (N : Nat) (s : ρ) :
    draws (F := F) G1 G2 N (List.ofFn (tapeOf F G1 G2 N s)) = ((draws (F := F) G1 G2 N s).1, []) := by
  rw [ofFn_tapeOf]
  have := draws_tape' (F := F) (G1 := G1) (G2 := G2) (draws_length (F := F) (G1 := G1) (G2 := G2) N s) []
  rwa [List.append_nil] at this

theorem triangle {a b c a' b' d d' : ℝ} (h : |a - b| = d) (h' : |a' - b'| = d') (hb : |b - b'| ≤ c) : |a - a'| ≤ c + d + d' := by
  rw [abs_le] at *
  have h1 := abs_le.mp h.le
  have h2 := abs_le.mp h'.le
  constructor <;> linarith [h1.1, h1.2, h2.1, h2.2]

section
variable [Fintype F] [Fintype G1] [Fintype G2] [Fintype Sd]

theorem bindingGame_close {D D' E : CRS G1 G2 GT → ℝ} (h : ∀ crs : CRS G1 G2 GT, crs.u.length = 2 → crs.v.length = 2 → |D crs - D' crs| ≤ E crs) :
    |bindingGame e D - bindingGame e D'| ≤ bindingGame e E := by
  simp only [bindingGame]
  refine abs_expect_sub_le _ _ _ fun p1 => abs_expect_sub_le _ _ _ fun p2 => abs_expect_sub_le _ _ _ fun a1 =>
    abs_expect_sub_le _ _ _ fun a2 => abs_expect_sub_le _ _ _ fun t1 => abs_expect_sub_le _ _ _ fun t2 => h _ rfl rfl

/-- C99: on any CRS, the seeded generator changes what a test sees of a PPE proof by exactly the advantage of a test of the generator. -/
theorem C99_ppe_game (equ : PPE F G1 G2 GT) (x : List G1) (y : List G2) (hx : x ≠ []) (hy : y ≠ []) (hd : equ.Dims x.length y.length)
    (hu : crs.u.length = 2) (hv : crs.v.length = 2) (sch : Nat → Scheduler) (init : Sd → ρ) (D : Res (View G1 G2) → ℝ) :
    |seedGame init (fun rng => equ.commitAndProve sch x y crs rng) D -
      viewGame (N := 2 * x.length + 2 * y.length + 4) (fun rng => equ.commitAndProve sch x y crs rng) D| =
    prgAdv (N := 2 * x.length + 2 * y.length + 4) G1 G2 init fun t => D (viewOn (fun rng => equ.commitAndProve sch x y crs rng) t) := by
  have key : ∀ s : ρ, (equ.commitAndProve sch x y crs s).map (fun r => r.1.publicPart) =
      viewOn (fun rng => equ.commitAndProve sch x y crs rng) (tapeOf F G1 G2 (2 * x.length + 2 * y.length + 4) s) := by
    intro s
    obtain ⟨⟨cp, r⟩, h⟩ := ((C36_commit_and_prove sch crs s).1 equ x y).mpr ⟨hx, hy, hd, by omega, by omega⟩
    have h' := (C39_ppe (ρ' := List F) equ x y sch crs s r cp h).2 sch _ [] (draws_ofFn_tapeOf _ s)
    rw [viewOn, h, h']; rfl
  simp only [seedGame, viewGame, prgAdv, key]

/-- C99: PPE proofs for two witnesses on a hiding CRS with a seeded generator: whoever tells them apart tells the generator from
uniform scalars. -/
theorem C99_ppe (he : PrimeGroups e) (hs : SimulatedCrs e crs) (hg : crs.NonzeroGens) (equ : PPE F G1 G2 GT)
    (x x' : List G1) (y y' : List G2) (hx : x ≠ []) (hy : y ≠ []) (hd : equ.Dims x.length y.length)
    (hlx : x'.length = x.length) (hly : y'.length = y.length) (h : equ.Holds e x y) (h' : equ.Holds e x' y')
    (sch sch' : Nat → Scheduler) (init : Sd → ρ) (D : Res (View G1 G2) → ℝ) :
    |seedGame init (fun rng => equ.commitAndProve sch x y crs rng) D - seedGame init (fun rng => equ.commitAndProve sch' x' y' crs rng) D| ≤
    prgAdv (N := 2 * x.length + 2 * y.length + 4) G1 G2 init (fun t => D (viewOn (fun rng => equ.commitAndProve sch x y crs rng) t)) +
      prgAdv (N := 2 * x.length + 2 * y.length + 4) G1 G2 init (fun t => D (viewOn (fun rng => equ.commitAndProve sch' x' y' crs rng) t)) := by
  obtain ⟨u0, u1, v0, v1, a1, t1, a2, t2, hu, hv, ku, kv⟩ := hs.keys he hg
  have hx' : x' ≠ [] := by rw [← List.length_pos_iff, hlx, List.length_pos_iff]; exact hx
  have hy' : y' ≠ [] := by rw [← List.length_pos_iff, hly, List.length_pos_iff]; exact hy
  have k1 := C99_ppe_game equ x y hx hy hd (by rw [hu]; rfl) (by rw [hv]; rfl) sch init D
  have k2 := C99_ppe_game equ x' y' hx' hy' (by rw [hlx, hly]; exact hd) (by rw [hu]; rfl) (by rw [hv]; rfl) sch' init D
  rw [hlx, hly] at k2
  have := triangle k1 k2 (le_of_eq (abs_eq_zero.mpr (sub_eq_zero.mpr ((C13_ppe he hs hg equ x x' y y' hx hy hd hlx hly h h' sch sch').game D))))
  linarith

/-- C99: the same for the CRS of `generate_crs`: whoever tells the proofs apart breaks DDH or tells the generator from uniform scalars. -/
theorem C99_ppe_generated (he : PrimeGroups e) (equ : PPE F G1 G2 GT)
    (x x' : List G1) (y y' : List G2) (hx : x ≠ []) (hy : y ≠ []) (hd : equ.Dims x.length y.length)
    (hlx : x'.length = x.length) (hly : y'.length = y.length) (h : equ.Holds e x y) (h' : equ.Holds e x' y')
    (sch sch' : Nat → Scheduler) (init : Sd → ρ) (D : CRS G1 G2 GT → Res (View G1 G2) → ℝ) (hD : ∀ crs v, 0 ≤ D crs v ∧ D crs v ≤ 1) :
    let run := fun (crs : CRS G1 G2 GT) rng => equ.commitAndProve (ρ := List F) sch x y crs rng
    let run' := fun (crs : CRS G1 G2 GT) rng => equ.commitAndProve (ρ := List F) sch' x' y' crs rng
    let D1 := fun crs => viewGame (N := 2 * x.length + 2 * y.length + 4) (run crs) (D crs)
    let D2 := fun crs => viewGame (N := 2 * x.length + 2 * y.length + 4) (run' crs) (D crs)
    |bindingGame e (fun crs => seedGame init (fun rng => equ.commitAndProve sch x y crs rng) (D crs)) -
      bindingGame e (fun crs => seedGame init (fun rng => equ.commitAndProve sch' x' y' crs rng) (D crs))| ≤
    sxdhAdv e D1 + sxdhAdv e D2 + (1 / Fintype.card G1 + 1 / Fintype.card G2) +
      bindingGame e (fun crs => prgAdv (N := 2 * x.length + 2 * y.length + 4) G1 G2 init fun t => D crs (viewOn (run crs) t)) +
      bindingGame e (fun crs => prgAdv (N := 2 * x.length + 2 * y.length + 4) G1 G2 init fun t => D crs (viewOn (run' crs) t)) := by
  intro run run' D1 D2
  have hx' : x' ≠ [] := by rw [← List.length_pos_iff, hlx, List.length_pos_iff]; exact hx
  have hy' : y' ≠ [] := by rw [← List.length_pos_iff, hly, List.length_pos_iff]; exact hy
  have k1 := bindingGame_close (e := e) (D := fun crs => seedGame init (fun rng => equ.commitAndProve sch x y crs rng) (D crs)) (D' := D1)
    (E := fun crs => prgAdv (N := 2 * x.length + 2 * y.length + 4) G1 G2 init fun t => D crs (viewOn (run crs) t))
    fun crs hu hv => (C99_ppe_game equ x y hx hy hd hu hv sch init (D crs)).le
  have k2 := bindingGame_close (e := e) (D := fun crs => seedGame init (fun rng => equ.commitAndProve sch' x' y' crs rng) (D crs)) (D' := D2)
    (E := fun crs => prgAdv (N := 2 * x.length + 2 * y.length + 4) G1 G2 init fun t => D crs (viewOn (run' crs) t))
    fun crs hu hv => by
      have := C99_ppe_game equ x' y' hx' hy' (by rw [hlx, hly]; exact hd) hu hv sch' init (D crs)
      rw [hlx, hly] at this
      exact this.le
  have k3 := C56_ppe he equ x x' y y' hx hy hd hlx hly h h' sch sch' D hD
  simp only at k3
  rw [abs_le] at *
  constructor <;> linarith [k1.1, k1.2, k2.1, k2.2, k3.1, k3.2]

/-- C99: on any CRS, the seeded generator changes what a test sees of a MSMEG1 proof by exactly the advantage of a test of the generator. -/
theorem C99_msmeg1_game (equ : MSMEG1 F G1) (x : List G1) (y : List F) (hx : x ≠ []) (hy : y ≠ []) (hd : equ.Dims x.length y.length)
    (hu : crs.u.length = 2) (hv : crs.v.length = 2) (sch : Nat → Scheduler) (init : Sd → ρ) (D : Res (View G1 G2) → ℝ) :
    |seedGame init (fun rng => equ.commitAndProve sch x y crs rng) D -
      viewGame (N := 2 * x.length + y.length + 2) (fun rng => equ.commitAndProve sch x y crs rng) D| =
    prgAdv (N := 2 * x.length + y.length + 2) G1 G2 init fun t => D (viewOn (fun rng => equ.commitAndProve sch x y crs rng) t) := by
  have key : ∀ s : ρ, (equ.commitAndProve sch x y crs s).map (fun r => r.1.publicPart) =
      viewOn (fun rng => equ.commitAndProve sch x y crs rng) (tapeOf F G1 G2 (2 * x.length + y.length + 2) s) := by
    intro s
    obtain ⟨⟨cp, r⟩, h⟩ := ((C36_commit_and_prove sch crs s).2.1 equ x y).mpr ⟨hx, hy, hd, by omega, by omega⟩
    have h' := (C39_msmeg1 (ρ' := List F) equ x y sch crs s r cp h).2 sch _ [] (draws_ofFn_tapeOf _ s)
    rw [viewOn, h, h']; rfl
  simp only [seedGame, viewGame, prgAdv, key]

/-- C99: MSMEG1 proofs for two witnesses on a hiding CRS with a seeded generator: whoever tells them apart tells the generator from
uniform scalars. -/
theorem C99_msmeg1 (he : PrimeGroups e) (hs : SimulatedCrs e crs) (hg : crs.NonzeroGens) (equ : MSMEG1 F G1)
    (x x' : List G1) (y y' : List F) (hx : x ≠ []) (hy : y ≠ []) (hd : equ.Dims x.length y.length)
    (hlx : x'.length = x.length) (hly : y'.length = y.length) (h : equ.Holds x y) (h' : equ.Holds x' y')
    (sch sch' : Nat → Scheduler) (init : Sd → ρ) (D : Res (View G1 G2) → ℝ) :
    |seedGame init (fun rng => equ.commitAndProve sch x y crs rng) D - seedGame init (fun rng => equ.commitAndProve sch' x' y' crs rng) D| ≤
    prgAdv (N := 2 * x.length + y.length + 2) G1 G2 init (fun t => D (viewOn (fun rng => equ.commitAndProve sch x y crs rng) t)) +
      prgAdv (N := 2 * x.length + y.length + 2) G1 G2 init (fun t => D (viewOn (fun rng => equ.commitAndProve sch' x' y' crs rng) t)) := by
  obtain ⟨u0, u1, v0, v1, a1, t1, a2, t2, hu, hv, ku, kv⟩ := hs.keys he hg
  have hx' : x' ≠ [] := by rw [← List.length_pos_iff, hlx, List.length_pos_iff]; exact hx
  have hy' : y' ≠ [] := by rw [← List.length_pos_iff, hly, List.length_pos_iff]; exact hy
  have k1 := C99_msmeg1_game equ x y hx hy hd (by rw [hu]; rfl) (by rw [hv]; rfl) sch init D
  have k2 := C99_msmeg1_game equ x' y' hx' hy' (by rw [hlx, hly]; exact hd) (by rw [hu]; rfl) (by rw [hv]; rfl) sch' init D
  rw [hlx, hly] at k2
  have := triangle k1 k2 (le_of_eq (abs_eq_zero.mpr (sub_eq_zero.mpr ((C14_msmeg1 he hs hg equ x x' y y' hx hy hd hlx hly h h' sch sch').game D))))
  linarith

/-- C99: the same for the CRS of `generate_crs`: whoever tells the proofs apart breaks DDH or tells the generator from uniform scalars. -/
theorem C99_msmeg1_generated (he : PrimeGroups e) (equ : MSMEG1 F G1)
    (x x' : List G1) (y y' : List F) (hx : x ≠ []) (hy : y ≠ []) (hd : equ.Dims x.length y.length)
    (hlx : x'.length = x.length) (hly : y'.length = y.length) (h : equ.Holds x y) (h' : equ.Holds x' y')
    (sch sch' : Nat → Scheduler) (init : Sd → ρ) (D : CRS G1 G2 GT → Res (View G1 G2) → ℝ) (hD : ∀ crs v, 0 ≤ D crs v ∧ D crs v ≤ 1) :
    let run := fun (crs : CRS G1 G2 GT) rng => equ.commitAndProve (ρ := List F) sch x y crs rng
    let run' := fun (crs : CRS G1 G2 GT) rng => equ.commitAndProve (ρ := List F) sch' x' y' crs rng
    let D1 := fun crs => viewGame (N := 2 * x.length + y.length + 2) (run crs) (D crs)
    let D2 := fun crs => viewGame (N := 2 * x.length + y.length + 2) (run' crs) (D crs)
    |bindingGame e (fun crs => seedGame init (fun rng => equ.commitAndProve sch x y crs rng) (D crs)) -
      bindingGame e (fun crs => seedGame init (fun rng => equ.commitAndProve sch' x' y' crs rng) (D crs))| ≤
    sxdhAdv e D1 + sxdhAdv e D2 + (1 / Fintype.card G1 + 1 / Fintype.card G2) +
      bindingGame e (fun crs => prgAdv (N := 2 * x.length + y.length + 2) G1 G2 init fun t => D crs (viewOn (run crs) t)) +
      bindingGame e (fun crs => prgAdv (N := 2 * x.length + y.length + 2) G1 G2 init fun t => D crs (viewOn (run' crs) t)) := by
  intro run run' D1 D2
  have hx' : x' ≠ [] := by rw [← List.length_pos_iff, hlx, List.length_pos_iff]; exact hx
  have hy' : y' ≠ [] := by rw [← List.length_pos_iff, hly, List.length_pos_iff]; exact hy
  have k1 := bindingGame_close (e := e) (D := fun crs => seedGame init (fun rng => equ.commitAndProve sch x y crs rng) (D crs)) (D' := D1)
    (E := fun crs => prgAdv (N := 2 * x.length + y.length + 2) G1 G2 init fun t => D crs (viewOn (run crs) t))
    fun crs hu hv => (C99_msmeg1_game equ x y hx hy hd hu hv sch init (D crs)).le
  have k2 := bindingGame_close (e := e) (D := fun crs => seedGame init (fun rng => equ.commitAndProve sch' x' y' crs rng) (D crs)) (D' := D2)
    (E := fun crs => prgAdv (N := 2 * x.length + y.length + 2) G1 G2 init fun t => D crs (viewOn (run' crs) t))
    fun crs hu hv => by
      have := C99_msmeg1_game equ x' y' hx' hy' (by rw [hlx, hly]; exact hd) hu hv sch' init (D crs)
      rw [hlx, hly] at this
      exact this.le
  have k3 := C56_msmeg1 he equ x x' y y' hx hy hd hlx hly h h' sch sch' D hD
  simp only at k3
  rw [abs_le] at *
  constructor <;> linarith [k1.1, k1.2, k2.1, k2.2, k3.1, k3.2]

/-- C99: on any CRS, the seeded generator changes what a test sees of a MSMEG2 proof by exactly the advantage of a test of the generator. -/
theorem C99_msmeg2_game (equ : MSMEG2 F G2) (x : List F) (y : List G2) (hx : x ≠ []) (hy : y ≠ []) (hd : equ.Dims x.length y.length)
    (hu : crs.u.length = 2) (hv : crs.v.length = 2) (sch : Nat → Scheduler) (init : Sd → ρ) (D : Res (View G1 G2) → ℝ) :
    |seedGame init (fun rng => equ.commitAndProve sch x y crs rng) D -
      viewGame (N := x.length + 2 * y.length + 2) (fun rng => equ.commitAndProve sch x y crs rng) D| =
    prgAdv (N := x.length + 2 * y.length + 2) G1 G2 init fun t => D (viewOn (fun rng => equ.commitAndProve sch x y crs rng) t) := by
  have key : ∀ s : ρ, (equ.commitAndProve sch x y crs s).map (fun r => r.1.publicPart) =
      viewOn (fun rng => equ.commitAndProve sch x y crs rng) (tapeOf F G1 G2 (x.length + 2 * y.length + 2) s) := by
    intro s
    obtain ⟨⟨cp, r⟩, h⟩ := ((C36_commit_and_prove sch crs s).2.2.1 equ x y).mpr ⟨hx, hy, hd, by omega, by omega⟩
    have h' := (C39_msmeg2 (ρ' := List F) equ x y sch crs s r cp h).2 sch _ [] (draws_ofFn_tapeOf _ s)
    rw [viewOn, h, h']; rfl
  simp only [seedGame, viewGame, prgAdv, key]

/-- C99: MSMEG2 proofs for two witnesses on a hiding CRS with a seeded generator: whoever tells them apart tells the generator from
uniform scalars. -/
theorem C99_msmeg2 (he : PrimeGroups e) (hs : SimulatedCrs e crs) (hg : crs.NonzeroGens) (equ : MSMEG2 F G2)
    (x x' : List F) (y y' : List G2) (hx : x ≠ []) (hy : y ≠ []) (hd : equ.Dims x.length y.length)
    (hlx : x'.length = x.length) (hly : y'.length = y.length) (h : equ.Holds x y) (h' : equ.Holds x' y')
    (sch sch' : Nat → Scheduler) (init : Sd → ρ) (D : Res (View G1 G2) → ℝ) :
    |seedGame init (fun rng => equ.commitAndProve sch x y crs rng) D - seedGame init (fun rng => equ.commitAndProve sch' x' y' crs rng) D| ≤
    prgAdv (N := x.length + 2 * y.length + 2) G1 G2 init (fun t => D (viewOn (fun rng => equ.commitAndProve sch x y crs rng) t)) +
      prgAdv (N := x.length + 2 * y.length + 2) G1 G2 init (fun t => D (viewOn (fun rng => equ.commitAndProve sch' x' y' crs rng) t)) := by
  obtain ⟨u0, u1, v0, v1, a1, t1, a2, t2, hu, hv, ku, kv⟩ := hs.keys he hg
  have hx' : x' ≠ [] := by rw [← List.length_pos_iff, hlx, List.length_pos_iff]; exact hx
  have hy' : y' ≠ [] := by rw [← List.length_pos_iff, hly, List.length_pos_iff]; exact hy
  have k1 := C99_msmeg2_game equ x y hx hy hd (by rw [hu]; rfl) (by rw [hv]; rfl) sch init D
  have k2 := C99_msmeg2_game equ x' y' hx' hy' (by rw [hlx, hly]; exact hd) (by rw [hu]; rfl) (by rw [hv]; rfl) sch' init D
  rw [hlx, hly] at k2
  have := triangle k1 k2 (le_of_eq (abs_eq_zero.mpr (sub_eq_zero.mpr ((C15_msmeg2 he hs hg equ x x' y y' hx hy hd hlx hly h h' sch sch').game D))))
  linarith

/-- C99: the same for the CRS of `generate_crs`: whoever tells the proofs apart breaks DDH or tells the generator from uniform scalars. -/
theorem C99_msmeg2_generated (he : PrimeGroups e) (equ : MSMEG2 F G2)
    (x x' : List F) (y y' : List G2) (hx : x ≠ []) (hy : y ≠ []) (hd : equ.Dims x.length y.length)
    (hlx : x'.length = x.length) (hly : y'.length = y.length) (h : equ.Holds x y) (h' : equ.Holds x' y')
    (sch sch' : Nat → Scheduler) (init : Sd → ρ) (D : CRS G1 G2 GT → Res (View G1 G2) → ℝ) (hD : ∀ crs v, 0 ≤ D crs v ∧ D crs v ≤ 1) :
    let run := fun (crs : CRS G1 G2 GT) rng => equ.commitAndProve (ρ := List F) sch x y crs rng
    let run' := fun (crs : CRS G1 G2 GT) rng => equ.commitAndProve (ρ := List F) sch' x' y' crs rng
    let D1 := fun crs => viewGame (N := x.length + 2 * y.length + 2) (run crs) (D crs)
    let D2 := fun crs => viewGame (N := x.length + 2 * y.length + 2) (run' crs) (D crs)
    |bindingGame e (fun crs => seedGame init (fun rng => equ.commitAndProve sch x y crs rng) (D crs)) -
      bindingGame e (fun crs => seedGame init (fun rng => equ.commitAndProve sch' x' y' crs rng) (D crs))| ≤
    sxdhAdv e D1 + sxdhAdv e D2 + (1 / Fintype.card G1 + 1 / Fintype.card G2) +
      bindingGame e (fun crs => prgAdv (N := x.length + 2 * y.length + 2) G1 G2 init fun t => D crs (viewOn (run crs) t)) +
      bindingGame e (fun crs => prgAdv (N := x.length + 2 * y.length + 2) G1 G2 init fun t => D crs (viewOn (run' crs) t)) := by
  intro run run' D1 D2
  have hx' : x' ≠ [] := by rw [← List.length_pos_iff, hlx, List.length_pos_iff]; exact hx
  have hy' : y' ≠ [] := by rw [← List.length_pos_iff, hly, List.length_pos_iff]; exact hy
  have k1 := bindingGame_close (e := e) (D := fun crs => seedGame init (fun rng => equ.commitAndProve sch x y crs rng) (D crs)) (D' := D1)
    (E := fun crs => prgAdv (N := x.length + 2 * y.length + 2) G1 G2 init fun t => D crs (viewOn (run crs) t))
    fun crs hu hv => (C99_msmeg2_game equ x y hx hy hd hu hv sch init (D crs)).le
  have k2 := bindingGame_close (e := e) (D := fun crs => seedGame init (fun rng => equ.commitAndProve sch' x' y' crs rng) (D crs)) (D' := D2)
    (E := fun crs => prgAdv (N := x.length + 2 * y.length + 2) G1 G2 init fun t => D crs (viewOn (run' crs) t))
    fun crs hu hv => by
      have := C99_msmeg2_game equ x' y' hx' hy' (by rw [hlx, hly]; exact hd) hu hv sch' init (D crs)
      rw [hlx, hly] at this
      exact this.le
  have k3 := C56_msmeg2 he equ x x' y y' hx hy hd hlx hly h h' sch sch' D hD
  simp only at k3
  rw [abs_le] at *
  constructor <;> linarith [k1.1, k1.2, k2.1, k2.2, k3.1, k3.2]

/-- C99: on any CRS, the seeded generator changes what a test sees of a QuadEqu proof by exactly the advantage of a test of the generator. -/
theorem C99_quad_game (equ : QuadEqu F) (x : List F) (y : List F) (hx : x ≠ []) (hy : y ≠ []) (hd : equ.Dims x.length y.length)
    (hu : crs.u.length = 2) (hv : crs.v.length = 2) (sch : Nat → Scheduler) (init : Sd → ρ) (D : Res (View G1 G2) → ℝ) :
    |seedGame init (fun rng => equ.commitAndProve sch x y crs rng) D -
      viewGame (N := x.length + y.length + 1) (fun rng => equ.commitAndProve sch x y crs rng) D| =
    prgAdv (N := x.length + y.length + 1) G1 G2 init fun t => D (viewOn (fun rng => equ.commitAndProve sch x y crs rng) t) := by
  have key : ∀ s : ρ, (equ.commitAndProve sch x y crs s).map (fun r => r.1.publicPart) =
      viewOn (fun rng => equ.commitAndProve sch x y crs rng) (tapeOf F G1 G2 (x.length + y.length + 1) s) := by
    intro s
    obtain ⟨⟨cp, r⟩, h⟩ := ((C36_commit_and_prove sch crs s).2.2.2 equ x y).mpr ⟨hx, hy, hd, by omega, by omega⟩
    have h' := (C39_quad (ρ' := List F) equ x y sch crs s r cp h).2 sch _ [] (draws_ofFn_tapeOf _ s)
    rw [viewOn, h, h']; rfl
  simp only [seedGame, viewGame, prgAdv, key]

/-- C99: QuadEqu proofs for two witnesses on a hiding CRS with a seeded generator: whoever tells them apart tells the generator from
uniform scalars. -/
theorem C99_quad (he : PrimeGroups e) (hs : SimulatedCrs e crs) (hg : crs.NonzeroGens) (equ : QuadEqu F)
    (x x' : List F) (y y' : List F) (hx : x ≠ []) (hy : y ≠ []) (hd : equ.Dims x.length y.length)
    (hlx : x'.length = x.length) (hly : y'.length = y.length) (h : equ.Holds x y) (h' : equ.Holds x' y')
    (sch sch' : Nat → Scheduler) (init : Sd → ρ) (D : Res (View G1 G2) → ℝ) :
    |seedGame init (fun rng => equ.commitAndProve sch x y crs rng) D - seedGame init (fun rng => equ.commitAndProve sch' x' y' crs rng) D| ≤
    prgAdv (N := x.length + y.length + 1) G1 G2 init (fun t => D (viewOn (fun rng => equ.commitAndProve sch x y crs rng) t)) +
      prgAdv (N := x.length + y.length + 1) G1 G2 init (fun t => D (viewOn (fun rng => equ.commitAndProve sch' x' y' crs rng) t)) := by
  obtain ⟨u0, u1, v0, v1, a1, t1, a2, t2, hu, hv, ku, kv⟩ := hs.keys he hg
  have hx' : x' ≠ [] := by rw [← List.length_pos_iff, hlx, List.length_pos_iff]; exact hx
  have hy' : y' ≠ [] := by rw [← List.length_pos_iff, hly, List.length_pos_iff]; exact hy
  have k1 := C99_quad_game equ x y hx hy hd (by rw [hu]; rfl) (by rw [hv]; rfl) sch init D
  have k2 := C99_quad_game equ x' y' hx' hy' (by rw [hlx, hly]; exact hd) (by rw [hu]; rfl) (by rw [hv]; rfl) sch' init D
  rw [hlx, hly] at k2
  have := triangle k1 k2 (le_of_eq (abs_eq_zero.mpr (sub_eq_zero.mpr ((C16_quad he hs hg equ x x' y y' hx hy hd hlx hly h h' sch sch').game D))))
  linarith

/-- C99: the same for the CRS of `generate_crs`: whoever tells the proofs apart breaks DDH or tells the generator from uniform scalars. -/
theorem C99_quad_generated (he : PrimeGroups e) (equ : QuadEqu F)
    (x x' : List F) (y y' : List F) (hx : x ≠ []) (hy : y ≠ []) (hd : equ.Dims x.length y.length)
    (hlx : x'.length = x.length) (hly : y'.length = y.length) (h : equ.Holds x y) (h' : equ.Holds x' y')
    (sch sch' : Nat → Scheduler) (init : Sd → ρ) (D : CRS G1 G2 GT → Res (View G1 G2) → ℝ) (hD : ∀ crs v, 0 ≤ D crs v ∧ D crs v ≤ 1) :
    let run := fun (crs : CRS G1 G2 GT) rng => equ.commitAndProve (ρ := List F) sch x y crs rng
    let run' := fun (crs : CRS G1 G2 GT) rng => equ.commitAndProve (ρ := List F) sch' x' y' crs rng
    let D1 := fun crs => viewGame (N := x.length + y.length + 1) (run crs) (D crs)
    let D2 := fun crs => viewGame (N := x.length + y.length + 1) (run' crs) (D crs)
    |bindingGame e (fun crs => seedGame init (fun rng => equ.commitAndProve sch x y crs rng) (D crs)) -
      bindingGame e (fun crs => seedGame init (fun rng => equ.commitAndProve sch' x' y' crs rng) (D crs))| ≤
    sxdhAdv e D1 + sxdhAdv e D2 + (1 / Fintype.card G1 + 1 / Fintype.card G2) +
      bindingGame e (fun crs => prgAdv (N := x.length + y.length + 1) G1 G2 init fun t => D crs (viewOn (run crs) t)) +
      bindingGame e (fun crs => prgAdv (N := x.length + y.length + 1) G1 G2 init fun t => D crs (viewOn (run' crs) t)) := by
  intro run run' D1 D2
  have hx' : x' ≠ [] := by rw [← List.length_pos_iff, hlx, List.length_pos_iff]; exact hx
  have hy' : y' ≠ [] := by rw [← List.length_pos_iff, hly, List.length_pos_iff]; exact hy
  have k1 := bindingGame_close (e := e) (D := fun crs => seedGame init (fun rng => equ.commitAndProve sch x y crs rng) (D crs)) (D' := D1)
    (E := fun crs => prgAdv (N := x.length + y.length + 1) G1 G2 init fun t => D crs (viewOn (run crs) t))
    fun crs hu hv => (C99_quad_game equ x y hx hy hd hu hv sch init (D crs)).le
  have k2 := bindingGame_close (e := e) (D := fun crs => seedGame init (fun rng => equ.commitAndProve sch' x' y' crs rng) (D crs)) (D' := D2)
    (E := fun crs => prgAdv (N := x.length + y.length + 1) G1 G2 init fun t => D crs (viewOn (run' crs) t))
    fun crs hu hv => by
      have := C99_quad_game equ x' y' hx' hy' (by rw [hlx, hly]; exact hd) hu hv sch' init (D crs)
      rw [hlx, hly] at this
      exact this.le
  have k3 := C56_quad he equ x x' y y' hx hy hd hlx hly h h' sch sch' D hD
  simp only at k3
  rw [abs_le] at *
  constructor <;> linarith [k1.1, k1.2, k2.1, k2.2, k3.1, k3.2]

/-- C99: batch commitments to elements of `G1` on a hiding CRS with a seeded generator. -/
theorem C99_commit_G1 (he : PrimeGroups e) (hs : SimulatedCrs e crs) (hg : crs.NonzeroGens) (x x' : List G1) (hx : x ≠ [])
    (hl : x'.length = x.length) (init : Sd → ρ) (D : Res (List (Com G1)) → ℝ) :
    |seedComGame init (fun rng => batchCommitG1 (F := F) x crs rng) D - seedComGame init (fun rng => batchCommitG1 (F := F) x' crs rng) D| ≤
    prgAdv (N := 2 * x.length) G1 G2 init (fun t => D (comsOn (fun rng => batchCommitG1 (F := F) x crs rng) t)) +
      prgAdv (N := 2 * x.length) G1 G2 init (fun t => D (comsOn (fun rng => batchCommitG1 (F := F) x' crs rng) t)) := by
  obtain ⟨u0, u1, v0, v1, a1, t1, a2, t2, hu, hv, ku, kv⟩ := hs.keys he hg
  have key : ∀ z : List G1, z ≠ [] → z.length = x.length → ∀ s : ρ, (batchCommitG1 (F := F) z crs s).map (fun r => r.1.coms) =
      comsOn (fun rng => batchCommitG1 (F := F) z crs rng) (tapeOf F G1 G2 (2 * x.length) s) := by
    intro z hz hzl s
    have hm := List.length_pos_iff.mpr hz
    rw [← hzl]
    obtain ⟨m, hzm⟩ : ∃ m, z.length = m := ⟨_, rfl⟩
    rw [hzm] at hm
    rw [hzm]
    obtain ⟨z, rfl⟩ := exists_ofFn z hzm
    obtain ⟨R, hR⟩ := exists_flatten (l := (draws (F := F) G1 G2 (2 * m) s).1) (m := m) (n := 2) (by rw [draws_length]; omega)
    have hd : draws (F := F) G1 G2 (2 * m) s = ((matOf R).flatten, (draws (F := F) G1 G2 (2 * m) s).2) := by rw [← hR]
    have hd' := draws_ofFn_tapeOf (F := F) (G1 := G1) (G2 := G2) (2 * m) s
    rw [hR] at hd'
    rw [comsOn, batchCommitG1_draws hm z hu hd, batchCommitG1_draws hm z hu hd']; rfl
  have hx' : x' ≠ [] := by rw [← List.length_pos_iff, hl, List.length_pos_iff]; exact hx
  have hc : comGame (N := 2 * x.length) (fun rng => batchCommitG1 (F := F) x crs rng) D = comGame (N := 2 * x.length) (fun rng => batchCommitG1 (F := F) x' crs rng) D := by
    obtain ⟨φ, hφ⟩ := (C17_batch he hs hg).1 x x' hx hl
    refine Fintype.expect_equiv φ _ _ fun t => ?_
    obtain ⟨v, h1, h2⟩ := hφ t
    rw [h1, h2]
  have k1 : |seedComGame init (fun rng => batchCommitG1 (F := F) x crs rng) D - comGame (N := 2 * x.length) (fun rng => batchCommitG1 (F := F) x crs rng) D| =
      prgAdv (N := 2 * x.length) G1 G2 init (fun t => D (comsOn (fun rng => batchCommitG1 (F := F) x crs rng) t)) := by
    simp only [seedComGame, comGame, prgAdv, key x hx rfl]
  have k2 : |seedComGame init (fun rng => batchCommitG1 (F := F) x' crs rng) D - comGame (N := 2 * x.length) (fun rng => batchCommitG1 (F := F) x' crs rng) D| =
      prgAdv (N := 2 * x.length) G1 G2 init (fun t => D (comsOn (fun rng => batchCommitG1 (F := F) x' crs rng) t)) := by
    simp only [seedComGame, comGame, prgAdv, key x' hx' hl]
  have := triangle k1 k2 (le_of_eq (abs_eq_zero.mpr (sub_eq_zero.mpr hc)))
  linarith

/-- C99: batch commitments to elements of `G2` on a hiding CRS with a seeded generator. -/
theorem C99_commit_G2 (he : PrimeGroups e) (hs : SimulatedCrs e crs) (hg : crs.NonzeroGens) (x x' : List G2) (hx : x ≠ [])
    (hl : x'.length = x.length) (init : Sd → ρ) (D : Res (List (Com G2)) → ℝ) :
    |seedComGame init (fun rng => batchCommitG2 (F := F) x crs rng) D - seedComGame init (fun rng => batchCommitG2 (F := F) x' crs rng) D| ≤
    prgAdv (N := 2 * x.length) G1 G2 init (fun t => D (comsOn (fun rng => batchCommitG2 (F := F) x crs rng) t)) +
      prgAdv (N := 2 * x.length) G1 G2 init (fun t => D (comsOn (fun rng => batchCommitG2 (F := F) x' crs rng) t)) := by
  obtain ⟨u0, u1, v0, v1, a1, t1, a2, t2, hu, hv, ku, kv⟩ := hs.keys he hg
  have key : ∀ z : List G2, z ≠ [] → z.length = x.length → ∀ s : ρ, (batchCommitG2 (F := F) z crs s).map (fun r => r.1.coms) =
      comsOn (fun rng => batchCommitG2 (F := F) z crs rng) (tapeOf F G1 G2 (2 * x.length) s) := by
    intro z hz hzl s
    have hm := List.length_pos_iff.mpr hz
    rw [← hzl]
    obtain ⟨m, hzm⟩ : ∃ m, z.length = m := ⟨_, rfl⟩
    rw [hzm] at hm
    rw [hzm]
    obtain ⟨z, rfl⟩ := exists_ofFn z hzm
    obtain ⟨R, hR⟩ := exists_flatten (l := (draws (F := F) G1 G2 (2 * m) s).1) (m := m) (n := 2) (by rw [draws_length]; omega)
    have hd : draws (F := F) G1 G2 (2 * m) s = ((matOf R).flatten, (draws (F := F) G1 G2 (2 * m) s).2) := by rw [← hR]
    have hd' := draws_ofFn_tapeOf (F := F) (G1 := G1) (G2 := G2) (2 * m) s
    rw [hR] at hd'
    rw [comsOn, batchCommitG2_draws hm z hv hd, batchCommitG2_draws hm z hv hd']; rfl
  have hx' : x' ≠ [] := by rw [← List.length_pos_iff, hl, List.length_pos_iff]; exact hx
  have hc : comGame (N := 2 * x.length) (fun rng => batchCommitG2 (F := F) x crs rng) D = comGame (N := 2 * x.length) (fun rng => batchCommitG2 (F := F) x' crs rng) D := by
    obtain ⟨φ, hφ⟩ := (C17_batch he hs hg).2.1 x x' hx hl
    refine Fintype.expect_equiv φ _ _ fun t => ?_
    obtain ⟨v, h1, h2⟩ := hφ t
    rw [h1, h2]
  have k1 : |seedComGame init (fun rng => batchCommitG2 (F := F) x crs rng) D - comGame (N := 2 * x.length) (fun rng => batchCommitG2 (F := F) x crs rng) D| =
      prgAdv (N := 2 * x.length) G1 G2 init (fun t => D (comsOn (fun rng => batchCommitG2 (F := F) x crs rng) t)) := by
    simp only [seedComGame, comGame, prgAdv, key x hx rfl]
  have k2 : |seedComGame init (fun rng => batchCommitG2 (F := F) x' crs rng) D - comGame (N := 2 * x.length) (fun rng => batchCommitG2 (F := F) x' crs rng) D| =
      prgAdv (N := 2 * x.length) G1 G2 init (fun t => D (comsOn (fun rng => batchCommitG2 (F := F) x' crs rng) t)) := by
    simp only [seedComGame, comGame, prgAdv, key x' hx' hl]
  have := triangle k1 k2 (le_of_eq (abs_eq_zero.mpr (sub_eq_zero.mpr hc)))
  linarith

/-- C99: batch commitments to scalars in `G1` on a hiding CRS with a seeded generator. -/
theorem C99_commit_B1 (he : PrimeGroups e) (hs : SimulatedCrs e crs) (hg : crs.NonzeroGens) (x x' : List F) (hx : x ≠ [])
    (hl : x'.length = x.length) (init : Sd → ρ) (D : Res (List (Com G1)) → ℝ) :
    |seedComGame init (fun rng => batchCommitScalarToB1 x crs rng) D - seedComGame init (fun rng => batchCommitScalarToB1 x' crs rng) D| ≤
    prgAdv (N := x.length) G1 G2 init (fun t => D (comsOn (fun rng => batchCommitScalarToB1 x crs rng) t)) +
      prgAdv (N := x.length) G1 G2 init (fun t => D (comsOn (fun rng => batchCommitScalarToB1 x' crs rng) t)) := by
  obtain ⟨u0, u1, v0, v1, a1, t1, a2, t2, hu, hv, ku, kv⟩ := hs.keys he hg
  have key : ∀ z : List F, z ≠ [] → z.length = x.length → ∀ s : ρ, (batchCommitScalarToB1 z crs s).map (fun r => r.1.coms) =
      comsOn (fun rng => batchCommitScalarToB1 z crs rng) (tapeOf F G1 G2 (x.length) s) := by
    intro z hz hzl s
    have hm := List.length_pos_iff.mpr hz
    rw [← hzl]
    obtain ⟨m, hzm⟩ : ∃ m, z.length = m := ⟨_, rfl⟩
    rw [hzm] at hm
    rw [hzm]
    obtain ⟨z, rfl⟩ := exists_ofFn z hzm
    obtain ⟨R, hR⟩ := exists_flatten (l := (draws (F := F) G1 G2 (m) s).1) (m := m) (n := 1) (by rw [draws_length]; omega)
    have hd : draws (F := F) G1 G2 (m) s = ((matOf R).flatten, (draws (F := F) G1 G2 (m) s).2) := by rw [← hR]
    have hd' := draws_ofFn_tapeOf (F := F) (G1 := G1) (G2 := G2) (m) s
    rw [hR] at hd'
    rw [comsOn, batchCommitB1_draws hm z hu hd, batchCommitB1_draws hm z hu hd']; rfl
  have hx' : x' ≠ [] := by rw [← List.length_pos_iff, hl, List.length_pos_iff]; exact hx
  have hc : comGame (N := x.length) (fun rng => batchCommitScalarToB1 x crs rng) D = comGame (N := x.length) (fun rng => batchCommitScalarToB1 x' crs rng) D := by
    obtain ⟨φ, hφ⟩ := (C17_batch he hs hg).2.2.1 x x' hx hl
    refine Fintype.expect_equiv φ _ _ fun t => ?_
    obtain ⟨v, h1, h2⟩ := hφ t
    rw [h1, h2]
  have k1 : |seedComGame init (fun rng => batchCommitScalarToB1 x crs rng) D - comGame (N := x.length) (fun rng => batchCommitScalarToB1 x crs rng) D| =
      prgAdv (N := x.length) G1 G2 init (fun t => D (comsOn (fun rng => batchCommitScalarToB1 x crs rng) t)) := by
    simp only [seedComGame, comGame, prgAdv, key x hx rfl]
  have k2 : |seedComGame init (fun rng => batchCommitScalarToB1 x' crs rng) D - comGame (N := x.length) (fun rng => batchCommitScalarToB1 x' crs rng) D| =
      prgAdv (N := x.length) G1 G2 init (fun t => D (comsOn (fun rng => batchCommitScalarToB1 x' crs rng) t)) := by
    simp only [seedComGame, comGame, prgAdv, key x' hx' hl]
  have := triangle k1 k2 (le_of_eq (abs_eq_zero.mpr (sub_eq_zero.mpr hc)))
  linarith

/-- C99: batch commitments to scalars in `G2` on a hiding CRS with a seeded generator. -/
theorem C99_commit_B2 (he : PrimeGroups e) (hs : SimulatedCrs e crs) (hg : crs.NonzeroGens) (x x' : List F) (hx : x ≠ [])
    (hl : x'.length = x.length) (init : Sd → ρ) (D : Res (List (Com G2)) → ℝ) :
    |seedComGame init (fun rng => batchCommitScalarToB2 x crs rng) D - seedComGame init (fun rng => batchCommitScalarToB2 x' crs rng) D| ≤
    prgAdv (N := x.length) G1 G2 init (fun t => D (comsOn (fun rng => batchCommitScalarToB2 x crs rng) t)) +
      prgAdv (N := x.length) G1 G2 init (fun t => D (comsOn (fun rng => batchCommitScalarToB2 x' crs rng) t)) := by
  obtain ⟨u0, u1, v0, v1, a1, t1, a2, t2, hu, hv, ku, kv⟩ := hs.keys he hg
  have key : ∀ z : List F, z ≠ [] → z.length = x.length → ∀ s : ρ, (batchCommitScalarToB2 z crs s).map (fun r => r.1.coms) =
      comsOn (fun rng => batchCommitScalarToB2 z crs rng) (tapeOf F G1 G2 (x.length) s) := by
    intro z hz hzl s
    have hm := List.length_pos_iff.mpr hz
    rw [← hzl]
    obtain ⟨m, hzm⟩ : ∃ m, z.length = m := ⟨_, rfl⟩
    rw [hzm] at hm
    rw [hzm]
    obtain ⟨z, rfl⟩ := exists_ofFn z hzm
    obtain ⟨R, hR⟩ := exists_flatten (l := (draws (F := F) G1 G2 (m) s).1) (m := m) (n := 1) (by rw [draws_length]; omega)
    have hd : draws (F := F) G1 G2 (m) s = ((matOf R).flatten, (draws (F := F) G1 G2 (m) s).2) := by rw [← hR]
    have hd' := draws_ofFn_tapeOf (F := F) (G1 := G1) (G2 := G2) (m) s
    rw [hR] at hd'
    rw [comsOn, batchCommitB2_draws hm z hv hd, batchCommitB2_draws hm z hv hd']; rfl
  have hx' : x' ≠ [] := by rw [← List.length_pos_iff, hl, List.length_pos_iff]; exact hx
  have hc : comGame (N := x.length) (fun rng => batchCommitScalarToB2 x crs rng) D = comGame (N := x.length) (fun rng => batchCommitScalarToB2 x' crs rng) D := by
    obtain ⟨φ, hφ⟩ := (C17_batch he hs hg).2.2.2 x x' hx hl
    refine Fintype.expect_equiv φ _ _ fun t => ?_
    obtain ⟨v, h1, h2⟩ := hφ t
    rw [h1, h2]
  have k1 : |seedComGame init (fun rng => batchCommitScalarToB2 x crs rng) D - comGame (N := x.length) (fun rng => batchCommitScalarToB2 x crs rng) D| =
      prgAdv (N := x.length) G1 G2 init (fun t => D (comsOn (fun rng => batchCommitScalarToB2 x crs rng) t)) := by
    simp only [seedComGame, comGame, prgAdv, key x hx rfl]
  have k2 : |seedComGame init (fun rng => batchCommitScalarToB2 x' crs rng) D - comGame (N := x.length) (fun rng => batchCommitScalarToB2 x' crs rng) D| =
      prgAdv (N := x.length) G1 G2 init (fun t => D (comsOn (fun rng => batchCommitScalarToB2 x' crs rng) t)) := by
    simp only [seedComGame, comGame, prgAdv, key x' hx' hl]
  have := triangle k1 k2 (le_of_eq (abs_eq_zero.mpr (sub_eq_zero.mpr hc)))
  linarith

end

/-- A generator of which the seeds `0` and `1` give the scalars `0, 1, 2, ...` and `1, 2, 3, ...`. -/
example (sch : Nat → Scheduler) (D : Res (View Ex.K Ex.K) → ℝ) :=
  C99_ppe (Sd := Fin 2) (ρ := Nat) Ex.prime7 Ex.sim7_simulated Ex.sim7_nonzero Ex.ppe7 [2] [0] [3, 4] [1, 0] (by simp) (by simp) Ex.ppe7_dims rfl rfl
    Ex.ppe7_holds Ex.ppe7_holds' sch sch (fun s => s.val) D

example (sch : Nat → Scheduler) (D : Res (View Ex.K Ex.K) → ℝ) :=
  C99_msmeg1 (Sd := Fin 2) (ρ := Nat) Ex.prime7 Ex.sim7_simulated Ex.sim7_nonzero Ex.msm1_7 [2] [0] [3, 4] [1, 0] (by simp) (by simp) Ex.msm1_7_dims rfl rfl
    Ex.msm1_7_holds Ex.msm1_7_holds' sch sch (fun s => s.val) D

example (sch : Nat → Scheduler) (D : Res (View Ex.K Ex.K) → ℝ) :=
  C99_msmeg2 (Sd := Fin 2) (ρ := Nat) Ex.prime7 Ex.sim7_simulated Ex.sim7_nonzero Ex.msm2_7 [2] [0] [3, 4] [1, 0] (by simp) (by simp) Ex.msm2_7_dims rfl rfl
    Ex.msm2_7_holds Ex.msm2_7_holds' sch sch (fun s => s.val) D

example (sch : Nat → Scheduler) (D : Res (View Ex.K Ex.K) → ℝ) :=
  C99_quad (Sd := Fin 2) (ρ := Nat) Ex.prime7 Ex.sim7_simulated Ex.sim7_nonzero Ex.quad7 [2] [0] [3, 4] [1, 0] (by simp) (by simp) Ex.quad7_dims rfl rfl
    Ex.quad7_holds Ex.quad7_holds' sch sch (fun s => s.val) D

example (sch : Nat → Scheduler) (D : CRS Ex.K Ex.K Ex.K → Res (View Ex.K Ex.K) → ℝ) (hD : ∀ crs v, 0 ≤ D crs v ∧ D crs v ≤ 1) :=
  C99_ppe_generated (Sd := Fin 2) (ρ := Nat) Ex.prime7 Ex.ppe7 [2] [0] [3, 4] [1, 0] (by simp) (by simp) Ex.ppe7_dims rfl rfl
    Ex.ppe7_holds Ex.ppe7_holds' sch sch (fun s => s.val) D hD

example (sch : Nat → Scheduler) (D : CRS Ex.K Ex.K Ex.K → Res (View Ex.K Ex.K) → ℝ) (hD : ∀ crs v, 0 ≤ D crs v ∧ D crs v ≤ 1) :=
  C99_msmeg1_generated (Sd := Fin 2) (ρ := Nat) Ex.prime7 Ex.msm1_7 [2] [0] [3, 4] [1, 0] (by simp) (by simp) Ex.msm1_7_dims rfl rfl
    Ex.msm1_7_holds Ex.msm1_7_holds' sch sch (fun s => s.val) D hD

example (sch : Nat → Scheduler) (D : CRS Ex.K Ex.K Ex.K → Res (View Ex.K Ex.K) → ℝ) (hD : ∀ crs v, 0 ≤ D crs v ∧ D crs v ≤ 1) :=
  C99_msmeg2_generated (Sd := Fin 2) (ρ := Nat) Ex.prime7 Ex.msm2_7 [2] [0] [3, 4] [1, 0] (by simp) (by simp) Ex.msm2_7_dims rfl rfl
    Ex.msm2_7_holds Ex.msm2_7_holds' sch sch (fun s => s.val) D hD

example (sch : Nat → Scheduler) (D : CRS Ex.K Ex.K Ex.K → Res (View Ex.K Ex.K) → ℝ) (hD : ∀ crs v, 0 ≤ D crs v ∧ D crs v ≤ 1) :=
  C99_quad_generated (Sd := Fin 2) (ρ := Nat) Ex.prime7 Ex.quad7 [2] [0] [3, 4] [1, 0] (by simp) (by simp) Ex.quad7_dims rfl rfl
    Ex.quad7_holds Ex.quad7_holds' sch sch (fun s => s.val) D hD

example (D : Res (List (Com Ex.K)) → ℝ) :=
  C99_commit_G1 (Sd := Fin 2) (ρ := Nat) Ex.prime7 Ex.sim7_simulated Ex.sim7_nonzero [2, 3] [0, 5] (by simp) rfl (fun s => s.val) D

example (D : Res (List (Com Ex.K)) → ℝ) :=
  C99_commit_G2 (Sd := Fin 2) (ρ := Nat) Ex.prime7 Ex.sim7_simulated Ex.sim7_nonzero [2, 3] [0, 5] (by simp) rfl (fun s => s.val) D

example (D : Res (List (Com Ex.K)) → ℝ) :=
  C99_commit_B1 (Sd := Fin 2) (ρ := Nat) Ex.prime7 Ex.sim7_simulated Ex.sim7_nonzero [2, 3] [0, 5] (by simp) rfl (fun s => s.val) D

example (D : Res (List (Com Ex.K)) → ℝ) :=
  C99_commit_B2 (Sd := Fin 2) (ρ := Nat) Ex.prime7 Ex.sim7_simulated Ex.sim7_nonzero [2, 3] [0, 5] (by simp) rfl (fun s => s.val) D

/-! ### Instances -/

namespace Ex

example (sch : Nat → Scheduler) (init : K → Nat) := C99_ppe_game (crs := crs7) ppe7 [2] [3, 4] (by simp) (by simp) ppe7_dims rfl rfl sch init
example (sch : Nat → Scheduler) (init : K → Nat) := C99_msmeg1_game (crs := crs7) msm1_7 [2] [3, 4] (by simp) (by simp) msm1_7_dims rfl rfl sch init
example (sch : Nat → Scheduler) (init : K → Nat) := C99_msmeg2_game (crs := crs7) msm2_7 [2] [3, 4] (by simp) (by simp) msm2_7_dims rfl rfl sch init
example (sch : Nat → Scheduler) (init : K → Nat) := C99_quad_game (crs := crs7) quad7 [2] [3, 4] (by simp) (by simp) quad7_dims rfl rfl sch init

end Ex

end GS
