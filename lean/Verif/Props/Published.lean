import Verif.Spec.Published
import Verif.Lemmas.BindRange
import Verif.Props.Accepted
import Verif.Props.Extraction

/-!
# C71: which accepted proofs are published

On a CRS of `generate_crs`, the accepted proofs are those `commit_and_prove` publishes for the extracted witness, but for one
case: the elements of `pi` (of `theta`) can only be honest if some coefficient of an `x` (of a `y`) is nonzero or they all
extract to zero.
-/

set_option linter.unusedSectionVars false
set_option linter.unusedSimpArgs false

namespace GS
variable {F G1 G2 GT : Type} [Field F] [AddCommGroup G1] [Module F G1] [AddCommGroup G2] [Module F G2]
  [AddCommGroup GT] [Module F GT] {ρ : Type} [Rng ρ F G1 G2] {e : G1 →ₗ[F] G2 →ₗ[F] GT}

theorem exists_tape_iff {α V : Type} {m n p q N : Nat} (hN : N = m * p + n * q + q * p)
    {view : (Fin N → F) → Res α} {g : Rands F m n p q → V} {out : V → α} (hout : Function.Injective out)
    (h : ∀ t r, List.ofFn t = flat r → view t = .ok (out (g r))) {w : V} :
    (∃ t, view t = .ok (out w)) ↔ ∃ r, g r = w := by
  obtain ⟨E, hE⟩ := exists_tapeEquiv (F := F) (m := m) (n := n) (p := p) (q := q) hN
  constructor
  · rintro ⟨t, ht⟩
    obtain ⟨r, rfl⟩ := E.surjective t
    exact ⟨r, hout (Except.ok.inj ((h _ _ (hE r)).symm.trans ht))⟩
  · rintro ⟨r, rfl⟩
    exact ⟨E r, h _ _ (hE r)⟩

section lists
variable {A : Type} [AddCommGroup A] [Module F A] {m n : Nat}

theorem rowFactors_ofFn (b : Fin m → A) (γ : Fin m → Fin n → F) (y : Fin n → A) :
    rowFactors (List.ofFn b) (matOf γ) (List.ofFn y) = List.ofFn fun i => b i + ∑ j, γ i j • y j := by
  simp only [rowFactors, matOf, zipWith_ofFn, List.sum_ofFn]

theorem colFactors_ofFn (a : Fin n → A) (γ : Fin m → Fin n → F) (x : Fin m → A) :
    colFactors (List.ofFn a) (matOf γ) (List.ofFn x) = List.ofFn fun j => a j + ∑ i, γ i j • x i := by
  apply List.ext_getElem (by simp [colFactors])
  intro j h1 h2
  have hj : j < n := by simpa using h2
  simp [colFactors, matOf, zipWith_ofFn, List.sum_ofFn, List.getD_eq_getElem?_getD, hj]

theorem forall_zero_ofFn (f : Fin m → A) : (∀ w ∈ List.ofFn f, w = 0) ↔ ∀ i, f i = 0 := by
  simp

theorem map_ofFn_eq {B C : Type} (g : B → A) (h : C → A) (c : Fin m → B) (x : Fin m → C) :
    (List.ofFn c).map g = (List.ofFn x).map h ↔ ∀ i, g (c i) = h (x i) := by
  rw [List.map_ofFn, List.map_ofFn, List.ofFn_inj, funext_iff]; rfl

theorem map_ofFn_eq' {B : Type} (g : B → A) (c : Fin m → B) (x : Fin m → A) :
    (List.ofFn c).map g = List.ofFn x ↔ ∀ i, g (c i) = x i := by
  rw [List.map_ofFn, List.ofFn_inj, funext_iff]; rfl

theorem proj_scalar (a t s : F) (g : A) : proj a (s • ((⟨t • g, t • a • g⟩ : Com A) + ⟨0, g⟩)) = s • g := by
  rw [map_smul, map_add, proj_key1, proj_lin, zero_add]

theorem smul_factor (g : A) (b : F) (s : Fin n → F) (y : Fin n → F) :
    b • g + ∑ j, s j • y j • g = (b + ∑ j, s j • y j) • g := by
  simp only [add_smul, Finset.sum_smul, smul_smul, smul_eq_mul]

end lists

variable [DecidableEq GT]

/-- C71, PPE. -/
theorem C71_ppe (he : PrimeGroups e) (rng : ρ) (hg : (generateCrs e rng).1.NonzeroGens) (equ : PPE F G1 G2 GT)
    (x : List G1) (y : List G2) (hx : x ≠ []) (hy : y ≠ []) (hd : equ.Dims x.length y.length)
    (sch : Nat → Scheduler) (sch' : Scheduler) (cp : CProof F G1 G2)
    (hacc : equ.verify e sch' cp (generateCrs e rng).1 = .ok true) :
    (∃ t : Fin (2 * x.length + 2 * y.length + 4) → F,
      viewOn (fun r => equ.commitAndProve sch x y (generateCrs e rng).1 r) t = .ok cp.publicPart) ↔
    cp.xcoms.coms.map (extractWith (extractionKey F G1 G2 rng).1) = x ∧
    cp.ycoms.coms.map (extractWith (extractionKey F G1 G2 rng).2) = y ∧
    ((∀ w ∈ rowFactors equ.b_consts equ.gamma y, w = 0) →
      ∀ pf ∈ cp.equ_proofs, ∀ p ∈ pf.pi, extractWith (extractionKey F G1 G2 rng).2 p = 0) ∧
    ((∀ w ∈ colFactors equ.a_consts equ.gamma x, w = 0) →
      ∀ pf ∈ cp.equ_proofs, ∀ p ∈ pf.theta, extractWith (extractionKey F G1 G2 rng).1 p = 0) := by
  have hext := C65_ppe e rng equ cp sch' hacc
  obtain ⟨t1, t2, hbind⟩ := generateCrs_binding e rng
  revert hext hbind hg hacc
  generalize (generateCrs e rng).1 = crs
  generalize extractionKey F G1 G2 rng = key
  obtain ⟨a1, a2⟩ := key
  intro hg hacc hext hbind
  have hm := List.length_pos_iff.mpr hx
  have hn := List.length_pos_iff.mpr hy
  obtain ⟨m, hxm⟩ : ∃ m, x.length = m := ⟨_, rfl⟩
  obtain ⟨n, hyn⟩ : ∃ n, y.length = n := ⟨_, rfl⟩
  rw [hxm] at hm hd
  rw [hyn] at hn hd
  rw [hxm, hyn]
  obtain ⟨a, ha⟩ := exists_ofFn equ.a_consts hd.a
  obtain ⟨b, hb⟩ := exists_ofFn equ.b_consts hd.b
  obtain ⟨γ, hγ⟩ := rect_iff.mp (⟨hd.rows, hd.cols⟩ : Rect _ _ equ.gamma)
  obtain ⟨x, rfl⟩ := exists_ofFn x hxm
  obtain ⟨y, rfl⟩ := exists_ofFn y hyn
  obtain ⟨pf, hpf, hty, h1, h2, -, hp, hq⟩ := (C37_ppe e sch' cp crs equ).mp ⟨_, hacc⟩
  obtain ⟨w, hw⟩ := exists_pub (p := 2) (q := 2) (by rw [← h2, hd.b]) (by rw [← h1, hd.a]) hpf hty
    (hp.trans (by simp [hbind.u])) (hq.trans (by simp [hbind.v]))
  obtain ⟨r, hr, heq⟩ := PPE.verify_pub (e := e) (sch := sch') hm hn ha hb hγ hbind.u hbind.v hw
  rw [hacc] at hr; cases hr
  obtain ⟨hc, hd', pf', hpf', hπ, hθ, -⟩ := publicPart_pub hw
  rw [hpf] at hpf'; cases hpf'
  rw [hw, exists_tape_iff (p := 2) (q := 2) (by omega) (pub_injective _)
    (PPE.view_eq hm hn ha hb hγ x y hbind.u hbind.v), extractWith_eq, extractWith_eq]
  rw [extractWith_eq, extractWith_eq] at hext
  rw [bind_iff (P := 1) (Q := 1) (τ := fun _ => t1) (σ := fun _ => t2) he hg.1 hg.2 (a1 := a1) (a2 := a2) rfl rfl
    (fun k => by rw [Fin.eq_zero k]; ext <;> simp) (fun k => by rw [Fin.eq_zero k]; ext <;> simp) w ?_]
  · rw [ha, hb, hγ, hc, hd', hpf, rowFactors_ofFn, colFactors_ofFn, forall_zero_ofFn, forall_zero_ofFn, map_ofFn_eq' (proj a1), map_ofFn_eq' (proj a2)]
    simp only [List.mem_singleton, forall_eq, hπ, hθ, List.forall_mem_ofFn_iff, proj_lin, i1_apply, i2_apply, ne_eq, one_ne_zero, not_false_eq_true, forall_const, or_false, not_true_eq_false, false_imp_iff, and_true, true_and]
  · intro h3 h4
    simp only [proj_lin, i1_apply, i2_apply] at h3 h4
    rw [hc, hd', (map_ofFn_eq' (proj a1) _ _).mpr h3, (map_ofFn_eq' (proj a2) _ _).mpr h4] at hext
    rw [PPE.value (e := e) ha hb hγ (hext)]
    exact heq.mp rfl

/-- C71, MSMEG1: `theta` must have one element. -/
theorem C71_msmeg1 (he : PrimeGroups e) (rng : ρ) (hg : (generateCrs e rng).1.NonzeroGens) (equ : MSMEG1 F G1)
    (x : List G1) (y : List F) (hx : x ≠ []) (hy : y ≠ []) (hd : equ.Dims x.length y.length)
    (sch : Nat → Scheduler) (sch' : Scheduler) (cp : CProof F G1 G2)
    (hacc : equ.verify e sch' cp (generateCrs e rng).1 = .ok true)
    (hth : ∀ pf ∈ cp.equ_proofs, pf.theta.length = 1) :
    (∃ t : Fin (2 * x.length + y.length + 2) → F,
      viewOn (fun r => equ.commitAndProve sch x y (generateCrs e rng).1 r) t = .ok cp.publicPart) ↔
    cp.xcoms.coms.map (extractWith (extractionKey F G1 G2 rng).1) = x ∧
    cp.ycoms.coms.map (extractWith (extractionKey F G1 G2 rng).2) = y.map (· • (generateCrs e rng).1.g2_gen) ∧
    ((∀ w ∈ rowFactors equ.b_consts equ.gamma y, w = 0) →
      ∀ pf ∈ cp.equ_proofs, ∀ p ∈ pf.pi, extractWith (extractionKey F G1 G2 rng).2 p = 0) := by
  have hext := C65_msmeg1 e rng equ cp sch' hacc
  obtain ⟨t1, t2, hbind⟩ := generateCrs_binding e rng
  revert hext hbind hg hacc
  generalize (generateCrs e rng).1 = crs
  generalize extractionKey F G1 G2 rng = key
  obtain ⟨a1, a2⟩ := key
  intro hg hacc hext hbind
  have hm := List.length_pos_iff.mpr hx
  have hn := List.length_pos_iff.mpr hy
  obtain ⟨m, hxm⟩ : ∃ m, x.length = m := ⟨_, rfl⟩
  obtain ⟨n, hyn⟩ : ∃ n, y.length = n := ⟨_, rfl⟩
  rw [hxm] at hm hd
  rw [hyn] at hn hd
  rw [hxm, hyn]
  obtain ⟨a, ha⟩ := exists_ofFn equ.a_consts hd.a
  obtain ⟨b, hb⟩ := exists_ofFn equ.b_consts hd.b
  obtain ⟨γ, hγ⟩ := rect_iff.mp (⟨hd.rows, hd.cols⟩ : Rect _ _ equ.gamma)
  obtain ⟨x, rfl⟩ := exists_ofFn x hxm
  obtain ⟨y, rfl⟩ := exists_ofFn y hyn
  obtain ⟨pf, hpf, hty, h1, h2, -, hp, -, -⟩ := (C37_msmeg1 e sch' cp crs equ).mp ⟨_, hacc⟩
  obtain ⟨w, hw⟩ := exists_pub (p := 2) (q := 1) (by rw [← h2, hd.b]) (by rw [← h1, hd.a]) hpf hty
    (hp.trans (by simp [hbind.u])) (hth pf (by rw [hpf]; simp))
  obtain ⟨r, hr, heq⟩ := MSMEG1.verify_pub (e := e) (sch := sch') hm hn ha hb hγ hbind.u hbind.v hw
  rw [hacc] at hr; cases hr
  obtain ⟨hc, hd', pf', hpf', hπ, hθ, -⟩ := publicPart_pub hw
  rw [hpf] at hpf'; cases hpf'
  rw [hw, exists_tape_iff (p := 2) (q := 1) (by omega) (pub_injective _)
    (MSMEG1.view_eq hm hn ha hb hγ x y hbind.u hbind.v), extractWith_eq, extractWith_eq]
  rw [extractWith_eq, extractWith_eq] at hext
  rw [bind_iff (P := 1) (Q := 0) (τ := fun _ => t1) (σ := fun _ => t2) he hg.1 hg.2 (a1 := a1) (a2 := a2) rfl rfl
    (fun k => by rw [Fin.eq_zero k]; ext <;> simp) (fun k => k.elim0) w ?_]
  · rw [hb, hγ, hc, hd', hpf, rowFactors_ofFn, forall_zero_ofFn, map_ofFn_eq' (proj a1), map_ofFn_eq (proj a2) (· • crs.g2_gen)]
    simp only [List.mem_singleton, forall_eq, hπ, List.forall_mem_ofFn_iff, proj_lin, i1_apply, proj_scalar, smul_factor, smul_eq_zero, hg.2, ne_eq, one_ne_zero, not_false_eq_true, forall_const, or_false, not_true_eq_false, false_imp_iff, and_true, true_and]
  · intro h3 h4
    simp only [proj_lin, i1_apply, proj_scalar] at h3 h4
    rw [hc, hd', (map_ofFn_eq' (proj a1) _ _).mpr h3, (map_ofFn_eq (proj a2) (· • crs.g2_gen) _ _).mpr h4] at hext
    rw [MSMEG1.value (e := e) ha hb hγ ((C65_msmeg1_lifted e equ _ (fun z hz => (he.nondeg _ _ hz).resolve_right hg.2) _ _).mp hext)]
    exact heq.mp rfl

/-- C71, MSMEG2: `pi` must have one element. -/
theorem C71_msmeg2 (he : PrimeGroups e) (rng : ρ) (hg : (generateCrs e rng).1.NonzeroGens) (equ : MSMEG2 F G2)
    (x : List F) (y : List G2) (hx : x ≠ []) (hy : y ≠ []) (hd : equ.Dims x.length y.length)
    (sch : Nat → Scheduler) (sch' : Scheduler) (cp : CProof F G1 G2)
    (hacc : equ.verify e sch' cp (generateCrs e rng).1 = .ok true)
    (hpi : ∀ pf ∈ cp.equ_proofs, pf.pi.length = 1) :
    (∃ t : Fin (x.length + 2 * y.length + 2) → F,
      viewOn (fun r => equ.commitAndProve sch x y (generateCrs e rng).1 r) t = .ok cp.publicPart) ↔
    cp.xcoms.coms.map (extractWith (extractionKey F G1 G2 rng).1) = x.map (· • (generateCrs e rng).1.g1_gen) ∧
    cp.ycoms.coms.map (extractWith (extractionKey F G1 G2 rng).2) = y ∧
    ((∀ w ∈ colFactors equ.a_consts equ.gamma x, w = 0) →
      ∀ pf ∈ cp.equ_proofs, ∀ p ∈ pf.theta, extractWith (extractionKey F G1 G2 rng).1 p = 0) := by
  have hext := C65_msmeg2 e rng equ cp sch' hacc
  obtain ⟨t1, t2, hbind⟩ := generateCrs_binding e rng
  revert hext hbind hg hacc
  generalize (generateCrs e rng).1 = crs
  generalize extractionKey F G1 G2 rng = key
  obtain ⟨a1, a2⟩ := key
  intro hg hacc hext hbind
  have hm := List.length_pos_iff.mpr hx
  have hn := List.length_pos_iff.mpr hy
  obtain ⟨m, hxm⟩ : ∃ m, x.length = m := ⟨_, rfl⟩
  obtain ⟨n, hyn⟩ : ∃ n, y.length = n := ⟨_, rfl⟩
  rw [hxm] at hm hd
  rw [hyn] at hn hd
  rw [hxm, hyn]
  obtain ⟨a, ha⟩ := exists_ofFn equ.a_consts hd.a
  obtain ⟨b, hb⟩ := exists_ofFn equ.b_consts hd.b
  obtain ⟨γ, hγ⟩ := rect_iff.mp (⟨hd.rows, hd.cols⟩ : Rect _ _ equ.gamma)
  obtain ⟨x, rfl⟩ := exists_ofFn x hxm
  obtain ⟨y, rfl⟩ := exists_ofFn y hyn
  obtain ⟨pf, hpf, hty, h1, h2, -, -, -, hq⟩ := (C37_msmeg2 e sch' cp crs equ).mp ⟨_, hacc⟩
  obtain ⟨w, hw⟩ := exists_pub (p := 1) (q := 2) (by rw [← h2, hd.b]) (by rw [← h1, hd.a]) hpf hty
    (hpi pf (by rw [hpf]; simp)) (hq.trans (by simp [hbind.v]))
  obtain ⟨r, hr, heq⟩ := MSMEG2.verify_pub (e := e) (sch := sch') hm hn ha hb hγ hbind.u hbind.v hw
  rw [hacc] at hr; cases hr
  obtain ⟨hc, hd', pf', hpf', hπ, hθ, -⟩ := publicPart_pub hw
  rw [hpf] at hpf'; cases hpf'
  rw [hw, exists_tape_iff (p := 1) (q := 2) (by omega) (pub_injective _)
    (MSMEG2.view_eq hm hn ha hb hγ x y hbind.u hbind.v), extractWith_eq, extractWith_eq]
  rw [extractWith_eq, extractWith_eq] at hext
  rw [bind_iff (P := 0) (Q := 1) (τ := fun _ => t1) (σ := fun _ => t2) he hg.1 hg.2 (a1 := a1) (a2 := a2) rfl rfl
    (fun k => k.elim0) (fun k => by rw [Fin.eq_zero k]; ext <;> simp) w ?_]
  · rw [ha, hγ, hc, hd', hpf, colFactors_ofFn, forall_zero_ofFn, map_ofFn_eq (proj a1) (· • crs.g1_gen), map_ofFn_eq' (proj a2)]
    simp only [List.mem_singleton, forall_eq, hθ, List.forall_mem_ofFn_iff, proj_lin, i2_apply, proj_scalar, smul_factor, smul_eq_zero, hg.1, ne_eq, one_ne_zero, not_false_eq_true, forall_const, or_false, not_true_eq_false, false_imp_iff, and_true, true_and]
  · intro h3 h4
    simp only [proj_lin, i2_apply, proj_scalar] at h3 h4
    rw [hc, hd', (map_ofFn_eq (proj a1) (· • crs.g1_gen) _ _).mpr h3, (map_ofFn_eq' (proj a2) _ _).mpr h4] at hext
    rw [MSMEG2.value (e := e) ha hb hγ ((C65_msmeg2_lifted e equ _ (fun z hz => (he.nondeg _ _ hz).resolve_left hg.1) _ _).mp hext)]
    exact heq.mp rfl

/-- C71, QuadEqu: all accepted proofs with one `pi` and one `theta`. -/
theorem C71_quad (he : PrimeGroups e) (rng : ρ) (hg : (generateCrs e rng).1.NonzeroGens) (equ : QuadEqu F)
    (x : List F) (y : List F) (hx : x ≠ []) (hy : y ≠ []) (hd : equ.Dims x.length y.length)
    (sch : Nat → Scheduler) (sch' : Scheduler) (cp : CProof F G1 G2)
    (hacc : equ.verify e sch' cp (generateCrs e rng).1 = .ok true)
    (hpi : ∀ pf ∈ cp.equ_proofs, pf.pi.length = 1) (hth : ∀ pf ∈ cp.equ_proofs, pf.theta.length = 1) :
    (∃ t : Fin (x.length + y.length + 1) → F,
      viewOn (fun r => equ.commitAndProve sch x y (generateCrs e rng).1 r) t = .ok cp.publicPart) ↔
    cp.xcoms.coms.map (extractWith (extractionKey F G1 G2 rng).1) = x.map (· • (generateCrs e rng).1.g1_gen) ∧
    cp.ycoms.coms.map (extractWith (extractionKey F G1 G2 rng).2) = y.map (· • (generateCrs e rng).1.g2_gen) := by
  have hext := C65_quad e rng equ cp sch' hacc
  obtain ⟨t1, t2, hbind⟩ := generateCrs_binding e rng
  revert hext hbind hg hacc
  generalize (generateCrs e rng).1 = crs
  generalize extractionKey F G1 G2 rng = key
  obtain ⟨a1, a2⟩ := key
  intro hg hacc hext hbind
  have hm := List.length_pos_iff.mpr hx
  have hn := List.length_pos_iff.mpr hy
  obtain ⟨m, hxm⟩ : ∃ m, x.length = m := ⟨_, rfl⟩
  obtain ⟨n, hyn⟩ : ∃ n, y.length = n := ⟨_, rfl⟩
  rw [hxm] at hm hd
  rw [hyn] at hn hd
  rw [hxm, hyn]
  obtain ⟨a, ha⟩ := exists_ofFn equ.a_consts hd.a
  obtain ⟨b, hb⟩ := exists_ofFn equ.b_consts hd.b
  obtain ⟨γ, hγ⟩ := rect_iff.mp (⟨hd.rows, hd.cols⟩ : Rect _ _ equ.gamma)
  obtain ⟨x, rfl⟩ := exists_ofFn x hxm
  obtain ⟨y, rfl⟩ := exists_ofFn y hyn
  obtain ⟨pf, hpf, hty, h1, h2, -, -, -, -, -⟩ := (C37_quad e sch' cp crs equ).mp ⟨_, hacc⟩
  obtain ⟨w, hw⟩ := exists_pub (p := 1) (q := 1) (by rw [← h2, hd.b]) (by rw [← h1, hd.a]) hpf hty
    (hpi pf (by rw [hpf]; simp)) (hth pf (by rw [hpf]; simp))
  obtain ⟨r, hr, heq⟩ := QuadEqu.verify_pub (e := e) (sch := sch') hm hn ha hb hγ hbind.u hbind.v hw
  rw [hacc] at hr; cases hr
  obtain ⟨hc, hd', pf', hpf', hπ, hθ, -⟩ := publicPart_pub hw
  rw [hpf] at hpf'; cases hpf'
  rw [hw, exists_tape_iff (p := 1) (q := 1) (by omega) (pub_injective _)
    (QuadEqu.view_eq hm hn ha hb hγ x y hbind.u hbind.v), extractWith_eq, extractWith_eq]
  rw [extractWith_eq, extractWith_eq] at hext
  rw [bind_iff (P := 0) (Q := 0) (τ := fun _ => t1) (σ := fun _ => t2) he hg.1 hg.2 (a1 := a1) (a2 := a2) rfl rfl
    (fun k => k.elim0) (fun k => k.elim0) w ?_]
  · rw [hc, hd', map_ofFn_eq (proj a1) (· • crs.g1_gen), map_ofFn_eq (proj a2) (· • crs.g2_gen)]
    simp only [proj_scalar, smul_factor, smul_eq_zero, hg.2, hg.1, ne_eq, one_ne_zero, not_false_eq_true, forall_const, or_false, not_true_eq_false, false_imp_iff, and_true, true_and]
  · intro h3 h4
    simp only [proj_scalar] at h3 h4
    rw [hc, hd', (map_ofFn_eq (proj a1) (· • crs.g1_gen) _ _).mpr h3, (map_ofFn_eq (proj a2) (· • crs.g2_gen) _ _).mpr h4] at hext
    rw [QuadEqu.value (e := e) ha hb hγ ((C65_quad_lifted e equ _ _ (fun hz => (he.nondeg _ _ hz).elim hg.1 hg.2) _ _).mp hext)]
    exact heq.mp rfl

/-- C71: the exceptions exist. If every coefficient of the variables `x` vanishes, then beside any accepted proof there is an
accepted one with the same commitments that `commit_and_prove` publishes for no witness. -/
theorem C71_unpublished (he : PrimeGroups e) (rng : ρ) (hg : (generateCrs e rng).1.NonzeroGens) (equ : PPE F G1 G2 GT)
    (sch' : Scheduler) (cp : CProof F G1 G2) (hm : cp.xcoms.coms ≠ []) (hn : cp.ycoms.coms ≠ [])
    (hd : equ.Dims cp.xcoms.coms.length cp.ycoms.coms.length)
    (hacc : equ.verify e sch' cp (generateCrs e rng).1 = .ok true)
    (hw : ∀ w ∈ rowFactors equ.b_consts equ.gamma (cp.ycoms.coms.map (extractWith (extractionKey F G1 G2 rng).2)), w = 0) :
    ∃ cp' : CProof F G1 G2, equ.verify e sch' cp' (generateCrs e rng).1 = .ok true ∧
      cp'.xcoms = cp.xcoms ∧ cp'.ycoms = cp.ycoms ∧
      ∀ (sch : Nat → Scheduler) (x : List G1) (y : List G2), x.length = cp.xcoms.coms.length →
        y.length = cp.ycoms.coms.length → ∀ t : Fin (2 * x.length + 2 * y.length + 4) → F,
        viewOn (fun r => equ.commitAndProve sch x y (generateCrs e rng).1 r) t ≠ .ok cp'.publicPart := by
  -- an accepted proof with an element that extracts to something else than zero
  suffices h : ∃ cp' : CProof F G1 G2, equ.verify e sch' cp' (generateCrs e rng).1 = .ok true ∧
      cp'.xcoms = cp.xcoms ∧ cp'.ycoms = cp.ycoms ∧ ∃ pf ∈ cp'.equ_proofs, ∃ p ∈ pf.pi,
        extractWith (extractionKey F G1 G2 rng).2 p ≠ 0 by
    obtain ⟨cp', h1, h2, h3, pf, hpf, p, hp, hne⟩ := h
    refine ⟨cp', h1, h2, h3, fun sch x y hx hy t ht => hne ?_⟩
    have hx0 : x ≠ [] := List.length_pos_iff.mp (by rw [hx]; exact List.length_pos_iff.mpr hm)
    have hy0 : y ≠ [] := List.length_pos_iff.mp (by rw [hy]; exact List.length_pos_iff.mpr hn)
    obtain ⟨-, hye, hpi, -⟩ := (C71_ppe he rng hg equ x y hx0 hy0 (by rw [hx, hy]; exact hd) sch sch' cp' h1).mp ⟨t, ht⟩
    exact hpi (by rw [← hye, h3]; exact hw) pf hpf p hp
  obtain ⟨t1, t2, hbind⟩ := generateCrs_binding e rng
  revert hbind hg hacc hw
  generalize (generateCrs e rng).1 = crs
  generalize extractionKey F G1 G2 rng = key
  obtain ⟨a1, a2⟩ := key
  intro hg hacc hw hbind
  have hm := List.length_pos_iff.mpr hm
  have hn := List.length_pos_iff.mpr hn
  obtain ⟨m, hxm⟩ : ∃ m, cp.xcoms.coms.length = m := ⟨_, rfl⟩
  obtain ⟨n, hyn⟩ : ∃ n, cp.ycoms.coms.length = n := ⟨_, rfl⟩
  rw [hxm] at hm hd
  rw [hyn] at hn hd
  obtain ⟨a, ha⟩ := exists_ofFn equ.a_consts hd.a
  obtain ⟨b, hb⟩ := exists_ofFn equ.b_consts hd.b
  obtain ⟨γ, hγ⟩ := rect_iff.mp (⟨hd.rows, hd.cols⟩ : Rect _ _ equ.gamma)
  obtain ⟨pf, hpf, hty, h1, h2, -, hp, hq⟩ := (C37_ppe e sch' cp crs equ).mp ⟨_, hacc⟩
  obtain ⟨w, hw'⟩ := exists_pub (p := 2) (q := 2) (by rw [← h2, hd.b]) (by rw [← h1, hd.a]) hpf hty
    (hp.trans (by simp [hbind.u])) (hq.trans (by simp [hbind.v]))
  obtain ⟨r, hr, heq⟩ := PPE.verify_pub (e := e) (sch := sch') hm hn ha hb hγ hbind.u hbind.v hw'
  rw [hacc] at hr; cases hr
  obtain ⟨hc, hd', pf', hpf', hπ, hθ, -⟩ := publicPart_pub hw'
  rw [hpf] at hpf'; cases hpf'
  by_cases h0 : proj a2 (w.2.2.1 1) = 0
  · obtain ⟨w1, w2, π, θ⟩ := w
    simp only at h0 hc hd' hπ hθ
    let Z : Com G2 := ⟨0, crs.g2_gen⟩
    let cp' : CProof F G1 G2 :=
      ⟨cp.xcoms, cp.ycoms, [⟨[π 0 - t1 • Z, π 1 + Z], pf.theta, pf.equ_type, pf.rand⟩]⟩
    have hw2 : cp'.publicPart = pub .PairingProduct (w1, w2, ![π 0 - t1 • Z, π 1 + Z], θ) := by
      simp [CProof.publicPart, cp', pub, hc, hd', hθ, hty]
    obtain ⟨r, hr, heq'⟩ := PPE.verify_pub (e := e) (sch := sch') hm hn ha hb hγ hbind.u hbind.v hw2
    refine ⟨cp', hr.trans (congrArg _ (heq'.mpr ?_)), rfl, rfl, _, List.mem_singleton.mpr rfl, π 1 + Z, by simp, ?_⟩
    · have := heq.mp rfl
      rw [coreEquation] at this ⊢
      rw [this]
      congr 2
      simp only [Fin.sum_univ_two, Matrix.cons_val_zero, Matrix.cons_val_one]
      have hk : (⟨t1 • crs.g1_gen, t1 • a1 • crs.g1_gen⟩ : Com G1) = t1 • ⟨crs.g1_gen, a1 • crs.g1_gen⟩ := by
        ext <;> simp
      rw [hk]
      simp only [map_add, map_sub, map_smul, LinearMap.smul_apply]
      abel
    · rw [extractWith_eq, map_add, h0, proj_lin, zero_add]
      exact hg.2
  · refine ⟨cp, hacc, rfl, rfl, pf, by rw [hpf]; simp, w.2.2.1 1, by rw [hπ]; simp, ?_⟩
    rw [extractWith_eq]
    exact h0

/-- C71: every accepted proof of a quadratic equation is published by `commit_and_prove` on some solution. -/
theorem C71_quad_every (he : PrimeGroups e) (rng : ρ) (hg : (generateCrs e rng).1.NonzeroGens) (equ : QuadEqu F)
    (sch : Nat → Scheduler) (sch' : Scheduler) (cp : CProof F G1 G2) (hm : cp.xcoms.coms ≠ []) (hn : cp.ycoms.coms ≠ [])
    (hd : equ.Dims cp.xcoms.coms.length cp.ycoms.coms.length)
    (hacc : equ.verify e sch' cp (generateCrs e rng).1 = .ok true)
    (hpi : ∀ pf ∈ cp.equ_proofs, pf.pi.length = 1) (hth : ∀ pf ∈ cp.equ_proofs, pf.theta.length = 1) :
    ∃ x y : List F, equ.Holds x y ∧ ∃ t : Fin (x.length + y.length + 1) → F,
      viewOn (fun r => equ.commitAndProve sch x y (generateCrs e rng).1 r) t = .ok cp.publicPart := by
  have lift : ∀ {G : Type} [AddCommGroup G] [Module F G] (g : G) (_ : ∀ z, ∃ k : F, z = k • g) (l : List G),
      ∃ k : List F, l = k.map (· • g) := by
    intro G _ _ g hc l
    choose k hk using hc
    exact ⟨l.map k, by rw [List.map_map]; conv_lhs => rw [← List.map_id l]
                       exact List.map_congr_left fun z _ => hk z⟩
  obtain ⟨x, hx⟩ := lift _ (he.cyclic1 _ hg.1) (cp.xcoms.coms.map (extractWith (extractionKey F G1 G2 rng).1))
  obtain ⟨y, hy⟩ := lift _ (he.cyclic2 _ hg.2) (cp.ycoms.coms.map (extractWith (extractionKey F G1 G2 rng).2))
  have hxl : x.length = cp.xcoms.coms.length := by simpa using (congrArg List.length hx).symm
  have hyl : y.length = cp.ycoms.coms.length := by simpa using (congrArg List.length hy).symm
  have hh := C65_quad (e := e) rng equ cp sch' hacc
  rw [hx, hy] at hh
  refine ⟨x, y, (C65_quad_lifted (e := e) equ _ _ (fun h => (he.nondeg _ _ h).elim hg.1 hg.2) x y).mp hh, ?_⟩
  exact (C71_quad he rng hg equ x y (by rintro rfl; exact hm (List.length_eq_zero_iff.mp hxl.symm))
    (by rintro rfl; exact hn (List.length_eq_zero_iff.mp hyl.symm)) (by rw [hxl, hyl]; exact hd) sch sch' cp hacc hpi hth).mpr
    ⟨hx, hy⟩

/-! ### The hypotheses can be met -/

/-- Some coefficient of `x` and some of `y` is nonzero: every accepted proof with the right openings is published. -/
example (sch : Nat → Scheduler) (cp : CProof Ex.K Ex.K Ex.K)
    (h : Ex.ppe7.verify Ex.e7 seqSched cp (generateCrs Ex.e7 (1 : Nat)).1 = .ok true)
    (hx : cp.xcoms.coms.map (extractWith (extractionKey Ex.K Ex.K Ex.K (1 : Nat)).1) = [2])
    (hy : cp.ycoms.coms.map (extractWith (extractionKey Ex.K Ex.K Ex.K (1 : Nat)).2) = [3, 4]) :
    ∃ t : Fin 10 → Ex.K,
      viewOn (fun r => Ex.ppe7.commitAndProve sch [2] [3, 4] (generateCrs Ex.e7 (1 : Nat)).1 r) t = .ok cp.publicPart :=
  (C71_ppe Ex.prime7 (1 : Nat) Ex.crs7_nonzero Ex.ppe7 [2] [3, 4] (by simp) (by simp) Ex.ppe7_dims sch seqSched cp h).mpr
    ⟨hx, hy, fun h => absurd (h 2 (by decide)) (by decide), fun h => absurd (h 3 (by decide)) (by decide)⟩

/-- The equation `e(1, y) = 5`, in which `x` has coefficient zero. -/
def Ex.blind7 : PPE Ex.K Ex.K Ex.K Ex.K := ⟨[1], [0], [[0]], 5⟩

example : ∃ cp : CProof Ex.K Ex.K Ex.K, Ex.blind7.verify Ex.e7 seqSched cp (generateCrs Ex.e7 (1 : Nat)).1 = .ok true ∧
    cp.xcoms.coms.length = 1 ∧ cp.ycoms.coms.length = 1 ∧
    ∀ (sch : Nat → Scheduler) (x y : Ex.K) (t : Fin 8 → Ex.K),
      viewOn (fun r => Ex.blind7.commitAndProve sch [x] [y] (generateCrs Ex.e7 (1 : Nat)).1 r) t ≠ .ok cp.publicPart := by
  have hdims : Ex.blind7.Dims 1 1 := ⟨rfl, rfl, rfl, by decide⟩
  obtain ⟨cp, _, h0, h⟩ := C01_ppe_complete Ex.e7 Ex.blind7 [2] [5] Ex.crs7 (0 : Nat) (fun _ => seqSched) seqSched
    (by simp) (by simp) hdims rfl rfl (by unfold PPE.Holds; decide)
  obtain ⟨pf, -, -, h1, h2, -⟩ := (C37_ppe Ex.e7 seqSched cp Ex.crs7 Ex.blind7).mp ⟨_, h⟩
  have h1 : cp.ycoms.coms.length = 1 := h1.symm
  have h2 : cp.xcoms.coms.length = 1 := h2.symm
  obtain ⟨cp', h3, h4, h5, h6⟩ := C71_unpublished Ex.prime7 (1 : Nat) Ex.crs7_nonzero Ex.blind7 seqSched cp
    (List.length_pos_iff.mp (by rw [h2]; decide)) (List.length_pos_iff.mp (by rw [h1]; decide)) (by rw [h1, h2]; exact hdims) h
    (by
      obtain ⟨y, hy⟩ := List.length_eq_one_iff.mp h1
      rw [hy]; simp [rowFactors, Ex.blind7])
  exact ⟨cp', h3, by rw [h4, h2], by rw [h5, h1], fun sch x y t => h6 sch [x] [y] h2.symm h1.symm t⟩

/-- The proof `commit_and_prove` makes for `quad7` meets the hypotheses of `C71_quad_every`. -/
example (sch : Nat → Scheduler) : ∃ cp : CProof Ex.K Ex.K Ex.K, ∃ x y : List Ex.K, Ex.quad7.Holds x y ∧
    ∃ t : Fin (x.length + y.length + 1) → Ex.K,
      viewOn (fun r => Ex.quad7.commitAndProve sch x y (generateCrs Ex.e7 (1 : Nat)).1 r) t = .ok cp.publicPart := by
  obtain ⟨cp, _, h0, h⟩ := C04_quad_complete Ex.e7 Ex.quad7 [2] [3, 4] Ex.crs7 (0 : Nat) (fun _ => seqSched) seqSched
    (by simp) (by simp) Ex.quad7_dims rfl rfl Ex.quad7_holds
  obtain ⟨-, -, h1, h2, -⟩ := (C37_quad Ex.e7 seqSched cp Ex.crs7 Ex.quad7).mp ⟨_, h⟩ |>.choose_spec
  have h1 : cp.ycoms.coms.length = 2 := h1.symm
  have h2 : cp.xcoms.coms.length = 1 := h2.symm
  have hl : (match Ex.quad7.commitAndProve (fun _ => seqSched) [2] [3, 4] Ex.crs7 (0 : Nat) with
    | .ok r => r.1.equ_proofs.all fun pf => pf.pi.length == 1 && pf.theta.length == 1
    | .error _ => false) = true := by decide +kernel
  rw [h0] at hl
  simp only [List.all_eq_true, Bool.and_eq_true, beq_iff_eq] at hl
  exact ⟨cp, C71_quad_every Ex.prime7 (1 : Nat) Ex.crs7_nonzero Ex.quad7 sch seqSched cp
    (List.length_pos_iff.mp (by rw [h2]; decide)) (List.length_pos_iff.mp (by rw [h1]; decide))
    (by rw [h1, h2]; exact Ex.quad7_dims) h (fun pf hpf => (hl pf hpf).1) fun pf hpf => (hl pf hpf).2⟩

/-! ### Instances -/

namespace Ex

example (sch : Nat → Scheduler) := C71_msmeg1 prime7 (1 : Nat) crs7_nonzero msm1_7 [2] [3, 4] (by simp) (by simp) msm1_7_dims sch seqSched
  msm1_7_msg msm1_7_accepted (by decide +kernel)
example (sch : Nat → Scheduler) := C71_msmeg2 prime7 (1 : Nat) crs7_nonzero msm2_7 [2] [3, 4] (by simp) (by simp) msm2_7_dims sch seqSched
  msm2_7_msg msm2_7_accepted (by decide +kernel)
example (sch : Nat → Scheduler) := C71_quad prime7 (1 : Nat) crs7_nonzero quad7 [2] [3, 4] (by simp) (by simp) quad7_dims sch seqSched
  quad7_msg quad7_accepted (by decide +kernel) (by decide +kernel)

end Ex

end GS
