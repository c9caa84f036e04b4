import Verif.Props.Simulation
import Verif.Props.Verification
import Verif.Lemmas.Range

/-!
# C54, C55: accepted proofs on a simulated CRS

C54: every accepted proof is published by `commit_and_prove`, for every satisfying witness, on exactly one tape.
C55: the simulators of C50 make `verify` accept every equation, true or false.
-/

set_option linter.unusedSectionVars false

namespace GS
variable {F G1 G2 GT : Type} [Field F] [AddCommGroup G1] [Module F G1] [AddCommGroup G2] [Module F G2]
  [AddCommGroup GT] [Module F GT] {e : G1 →ₗ[F] G2 →ₗ[F] GT}

theorem existsUnique_tape {α V : Type} {m n p q N : Nat} (hN : N = m * p + n * q + q * p)
    {view : (Fin N → F) → Res α} {g : Rands F m n p q → V} {out : V → α} (hout : Function.Injective out)
    (h : ∀ t r, List.ofFn t = flat r → view t = .ok (out (g r))) (hg : Function.Injective g) {w : V}
    (hw : ∃ r, g r = w) : ∃! t, view t = .ok (out w) := by
  obtain ⟨E, hE⟩ := exists_tapeEquiv (F := F) (m := m) (n := n) (p := p) (q := q) hN
  obtain ⟨r, rfl⟩ := hw
  refine ⟨E r, h _ _ (hE r), fun t ht => ?_⟩
  obtain ⟨r', rfl⟩ := E.surjective t
  have := (h _ _ (hE r')).symm.trans ht
  rw [hg (hout (Except.ok.inj this))]

theorem pub_injective {m n p q : Nat} (ty : EquType) :
    Function.Injective (pub (G1 := G1) (G2 := G2) (m := m) (n := n) (p := p) (q := q) ty) := by
  rintro ⟨a, b, c, d⟩ ⟨a', b', c', d'⟩ h
  simp only [pub, Prod.mk.injEq, List.cons.injEq, and_true] at h
  obtain ⟨h1, h2, h3, h4⟩ := h
  rw [List.ofFn_injective h1, List.ofFn_injective h2, List.ofFn_injective h3, List.ofFn_injective h4]

theorem exists_pub {cp : CProof F G1 G2} {m n p q : Nat} {ty : EquType} {pf : EquProof F G1 G2}
    (hc : cp.xcoms.coms.length = m) (hd : cp.ycoms.coms.length = n) (h : cp.equ_proofs = [pf]) (ht : pf.equ_type = ty)
    (hp : pf.pi.length = p) (hq : pf.theta.length = q) :
    ∃ w : (Fin m → Com G1) × (Fin n → Com G2) × (Fin p → Com G2) × (Fin q → Com G1), cp.publicPart = pub ty w := by
  obtain ⟨c, hc⟩ := exists_ofFn _ hc
  obtain ⟨d, hd⟩ := exists_ofFn _ hd
  obtain ⟨π, hp⟩ := exists_ofFn _ hp
  obtain ⟨θ, hq⟩ := exists_ofFn _ hq
  exact ⟨(c, d, π, θ), by simp [CProof.publicPart, pub, hc, hd, h, hp, hq, ht]⟩

theorem map_ok_iff {α β : Type} {f : α → β} {x : Res α} {b : β} : x.map f = .ok b ↔ ∃ a, x = .ok a ∧ f a = b := by
  cases x <;> simp [Except.map]

theorem coms_of_span {G : Type} [AddCommGroup G] [Module F G] {n : Nat} {l k : List (Com G)} {d : Fin n → Com G}
    {v0 v1 : Com G} (hk : k = [v0, v1]) (hl : l = List.ofFn d) (h : ∀ j, d j ∈ Submodule.span F (Set.range ![v0])) :
    ∀ d ∈ l, ∃ v0 ∈ k.head?, ∃ s : F, d = s • v0 := by
  rw [hl, hk]
  intro c hc
  simp only [List.mem_ofFn] at hc
  obtain ⟨j, rfl⟩ := hc
  obtain ⟨s, hs⟩ := mem_span_one (h j)
  exact ⟨v0, rfl, s, hs⟩

theorem span_of_coms {G : Type} [AddCommGroup G] [Module F G] {n : Nat} {l : List (Com G)} {d : Fin n → Com G}
    {v0 : Com G} (hl : l = List.ofFn d) (h : ∀ d ∈ l, ∃ s : F, d = s • v0) (j : Fin n) :
    d j ∈ Submodule.span F (Set.range ![v0]) := by
  obtain ⟨s, hs⟩ := h (d j) (by rw [hl]; simp)
  rw [hs]
  exact mem_span1 _ _

/-- C54, PPE: published proofs are uniform among all accepted ones. -/
theorem C54_ppe [DecidableEq GT] (he : PrimeGroups e) {crs : CRS G1 G2 GT} (hs : SimulatedCrs e crs)
    (hg : crs.NonzeroGens) (equ : PPE F G1 G2 GT) (x : List G1) (y : List G2) (hx : x ≠ []) (hy : y ≠ [])
    (hd : equ.Dims x.length y.length) (h : equ.Holds e x y) (sch : Nat → Scheduler) (sch' : Scheduler)
    (cp : CProof F G1 G2) (hacc : equ.verify e sch' cp crs = .ok true) :
    ∃! t : Fin (2 * x.length + 2 * y.length + 4) → F, viewOn (fun rng => equ.commitAndProve sch x y crs rng) t = .ok cp.publicPart := by
  obtain ⟨u0, u1, v0, v1, a1, t1, a2, t2, hu, hv, ku, kv⟩ := hs.keys he hg
  have hm := List.length_pos_iff.mpr hx
  have hn := List.length_pos_iff.mpr hy
  obtain ⟨m, hxm⟩ : ∃ m, x.length = m := ⟨_, rfl⟩
  obtain ⟨n, hyn⟩ : ∃ n, y.length = n := ⟨_, rfl⟩
  rw [hxm] at hm hd
  rw [hyn] at hn hd
  rw [hxm, hyn]
  obtain ⟨a, ha⟩ := exists_ofFn equ.a_consts hd.a
  obtain ⟨b, hb⟩ := exists_ofFn equ.b_consts hd.b
  obtain ⟨γ, hγ⟩ := rect_iff.mp (⟨hd.rows, hd.cols⟩ : Rect _ _ equ.gamma)
  obtain ⟨x, rfl⟩ := exists_ofFn x hxm
  obtain ⟨y, rfl⟩ := exists_ofFn y hyn
  obtain ⟨pf, hpf, hty, h1, h2, -, hp, hq⟩ := (C37_ppe e sch' cp crs equ).mp ⟨_, hacc⟩
  obtain ⟨w, hw⟩ := exists_pub (p := 2) (q := 2) (by rw [← h2, hd.b]) (by rw [← h1, hd.a]) hpf hty
    (hp.trans (by simp [hu])) (hq.trans (by simp [hv]))
  obtain ⟨r, hr, heq⟩ := PPE.verify_pub (e := e) (sch := sch') hm hn ha hb hγ hu hv hw
  rw [hacc] at hr; cases hr
  rw [hw]
  refine existsUnique_tape (p := 2) (q := 2) (by omega) (pub_injective _) (PPE.view_eq hm hn ha hb hγ x y hu hv)
    (viewFn_inj ku.indep2 kv.indep2 ..) ?_
  rw [viewFn_range (ComT.pairL e) γ (fun _ => ku.span2 _) (fun _ => ku.span2 _) (fun _ => kv.span2 _) (ku.pair2 he),
    PPE.value (e := e) ha hb hγ h]
  exact ⟨fun _ => ku.span2 _, fun _ => kv.span2 _, fun _ => ku.span2 _, heq.mp rfl⟩

example (sch : Nat → Scheduler) (sch' : Scheduler) (cp : CProof Ex.K Ex.K Ex.K)
    (h : Ex.ppe7.verify Ex.e7 sch' cp Ex.sim7 = .ok true) :
    ∃! t : Fin 10 → Ex.K, viewOn (fun rng => Ex.ppe7.commitAndProve sch [2] [3, 4] Ex.sim7 rng) t = .ok cp.publicPart :=
  C54_ppe Ex.prime7 Ex.sim7_simulated Ex.sim7_nonzero Ex.ppe7 [2] [3, 4] (by simp) (by simp) Ex.ppe7_dims Ex.ppe7_holds
    sch sch' cp h

/-- C54, MSMEG1: published proofs are uniform among the accepted ones with one `theta` and scalar commitments on the
right. -/
theorem C54_msmeg1 [DecidableEq GT] (he : PrimeGroups e) {crs : CRS G1 G2 GT} (hs : SimulatedCrs e crs)
    (hg : crs.NonzeroGens) (equ : MSMEG1 F G1) (x : List G1) (y : List F) (hx : x ≠ []) (hy : y ≠ [])
    (hd : equ.Dims x.length y.length) (h : equ.Holds x y) (sch : Nat → Scheduler) (sch' : Scheduler)
    (cp : CProof F G1 G2) (hacc : equ.verify e sch' cp crs = .ok true)
    (hth : ∀ pf ∈ cp.equ_proofs, pf.theta.length = 1)
    (hy' : ∀ d ∈ cp.ycoms.coms, ∃ v0 ∈ crs.v.head?, ∃ s : F, d = s • v0) :
    ∃! t : Fin (2 * x.length + y.length + 2) → F, viewOn (fun rng => equ.commitAndProve sch x y crs rng) t = .ok cp.publicPart := by
  obtain ⟨u0, u1, v0, v1, a1, t1, a2, t2, hu, hv, ku, kv⟩ := hs.keys he hg
  have hm := List.length_pos_iff.mpr hx
  have hn := List.length_pos_iff.mpr hy
  obtain ⟨m, hxm⟩ : ∃ m, x.length = m := ⟨_, rfl⟩
  obtain ⟨n, hyn⟩ : ∃ n, y.length = n := ⟨_, rfl⟩
  rw [hxm] at hm hd
  rw [hyn] at hn hd
  rw [hxm, hyn]
  obtain ⟨a, ha⟩ := exists_ofFn equ.a_consts hd.a
  obtain ⟨b, hb⟩ := exists_ofFn equ.b_consts hd.b
  obtain ⟨γ, hγ⟩ := rect_iff.mp (⟨hd.rows, hd.cols⟩ : Rect _ _ equ.gamma)
  obtain ⟨x, rfl⟩ := exists_ofFn x hxm
  obtain ⟨y, rfl⟩ := exists_ofFn y hyn
  obtain ⟨pf, hpf, hty, h1, h2, -, hp, -, -⟩ := (C37_msmeg1 e sch' cp crs equ).mp ⟨_, hacc⟩
  obtain ⟨w, hw⟩ := exists_pub (p := 2) (q := 1) (by rw [← h2, hd.b]) (by rw [← h1, hd.a]) hpf hty
    (hp.trans (by simp [hu])) (hth pf (by rw [hpf]; simp))
  obtain ⟨r, hr, heq⟩ := MSMEG1.verify_pub (e := e) (sch := sch') hm hn ha hb hγ hu hv hw
  rw [hacc] at hr; cases hr
  have hspan := span_of_coms (publicPart_pub hw).2.1 fun d hd => by
    obtain ⟨_, hv0, hs⟩ := hy' d hd
    rw [hv] at hv0; cases hv0; exact hs
  rw [hw]
  refine existsUnique_tape (p := 2) (q := 1) (by omega) (pub_injective _) (MSMEG1.view_eq hm hn ha hb hγ x y hu hv)
    (viewFn_inj ku.indep2 kv.indep1 ..) ?_
  rw [viewFn_range (ComT.pairL e) γ (fun _ => ku.span2 _) (fun _ => ku.span2 _) (fun _ => kv.span1 _) (ku.pair2 he),
    MSMEG1.value (e := e) ha hb hγ h]
  exact ⟨fun _ => ku.span2 _, hspan, fun _ => ku.span2 _, heq.mp rfl⟩

/-- C54, MSMEG2: published proofs are uniform among the accepted ones with one `pi` and scalar commitments on the left. -/
theorem C54_msmeg2 [DecidableEq GT] (he : PrimeGroups e) {crs : CRS G1 G2 GT} (hs : SimulatedCrs e crs)
    (hg : crs.NonzeroGens) (equ : MSMEG2 F G2) (x : List F) (y : List G2) (hx : x ≠ []) (hy : y ≠ [])
    (hd : equ.Dims x.length y.length) (h : equ.Holds x y) (sch : Nat → Scheduler) (sch' : Scheduler)
    (cp : CProof F G1 G2) (hacc : equ.verify e sch' cp crs = .ok true)
    (hpi : ∀ pf ∈ cp.equ_proofs, pf.pi.length = 1)
    (hx' : ∀ c ∈ cp.xcoms.coms, ∃ u0 ∈ crs.u.head?, ∃ s : F, c = s • u0) :
    ∃! t : Fin (x.length + 2 * y.length + 2) → F, viewOn (fun rng => equ.commitAndProve sch x y crs rng) t = .ok cp.publicPart := by
  obtain ⟨u0, u1, v0, v1, a1, t1, a2, t2, hu, hv, ku, kv⟩ := hs.keys he hg
  have hm := List.length_pos_iff.mpr hx
  have hn := List.length_pos_iff.mpr hy
  obtain ⟨m, hxm⟩ : ∃ m, x.length = m := ⟨_, rfl⟩
  obtain ⟨n, hyn⟩ : ∃ n, y.length = n := ⟨_, rfl⟩
  rw [hxm] at hm hd
  rw [hyn] at hn hd
  rw [hxm, hyn]
  obtain ⟨a, ha⟩ := exists_ofFn equ.a_consts hd.a
  obtain ⟨b, hb⟩ := exists_ofFn equ.b_consts hd.b
  obtain ⟨γ, hγ⟩ := rect_iff.mp (⟨hd.rows, hd.cols⟩ : Rect _ _ equ.gamma)
  obtain ⟨x, rfl⟩ := exists_ofFn x hxm
  obtain ⟨y, rfl⟩ := exists_ofFn y hyn
  obtain ⟨pf, hpf, hty, h1, h2, -, -, -, hq⟩ := (C37_msmeg2 e sch' cp crs equ).mp ⟨_, hacc⟩
  obtain ⟨w, hw⟩ := exists_pub (p := 1) (q := 2) (by rw [← h2, hd.b]) (by rw [← h1, hd.a]) hpf hty
    (hpi pf (by rw [hpf]; simp)) (hq.trans (by simp [hv]))
  obtain ⟨r, hr, heq⟩ := MSMEG2.verify_pub (e := e) (sch := sch') hm hn ha hb hγ hu hv hw
  rw [hacc] at hr; cases hr
  have hspan := span_of_coms (publicPart_pub hw).1 fun d hd => by
    obtain ⟨_, hu0, hs⟩ := hx' d hd
    rw [hu] at hu0; cases hu0; exact hs
  rw [hw]
  refine existsUnique_tape (p := 1) (q := 2) (by omega) (pub_injective _) (MSMEG2.view_eq hm hn ha hb hγ x y hu hv)
    (viewFn_inj ku.indep1 kv.indep2 ..) ?_
  rw [viewFn_range (ComT.pairL e) γ (fun _ => ku.span1 _) (fun _ => ku.span1 _) (fun _ => kv.span2 _) (ku.pair1 he),
    MSMEG2.value (e := e) ha hb hγ h]
  refine ⟨hspan, fun _ => kv.span2 _, ?_, heq.mp rfl⟩
  refine ku.theta_span (kv.copair2 he) (fun _ => ku.span1 _) ⟨_, _, ?_, rfl⟩ hspan (heq.mp rfl)
  rw [ku.lift]; exact mem_span1 _ _

/-- C54, QuadEqu: published proofs are uniform among the accepted ones with one `pi`, one `theta` and scalar
commitments. -/
theorem C54_quad [DecidableEq GT] (he : PrimeGroups e) {crs : CRS G1 G2 GT} (hs : SimulatedCrs e crs)
    (hg : crs.NonzeroGens) (equ : QuadEqu F) (x : List F) (y : List F) (hx : x ≠ []) (hy : y ≠ [])
    (hd : equ.Dims x.length y.length) (h : equ.Holds x y) (sch : Nat → Scheduler) (sch' : Scheduler)
    (cp : CProof F G1 G2) (hacc : equ.verify e sch' cp crs = .ok true)
    (hpi : ∀ pf ∈ cp.equ_proofs, pf.pi.length = 1) (hth : ∀ pf ∈ cp.equ_proofs, pf.theta.length = 1)
    (hx' : ∀ c ∈ cp.xcoms.coms, ∃ u0 ∈ crs.u.head?, ∃ s : F, c = s • u0)
    (hy' : ∀ d ∈ cp.ycoms.coms, ∃ v0 ∈ crs.v.head?, ∃ s : F, d = s • v0) :
    ∃! t : Fin (x.length + y.length + 1) → F, viewOn (fun rng => equ.commitAndProve sch x y crs rng) t = .ok cp.publicPart := by
  obtain ⟨u0, u1, v0, v1, a1, t1, a2, t2, hu, hv, ku, kv⟩ := hs.keys he hg
  have hm := List.length_pos_iff.mpr hx
  have hn := List.length_pos_iff.mpr hy
  obtain ⟨m, hxm⟩ : ∃ m, x.length = m := ⟨_, rfl⟩
  obtain ⟨n, hyn⟩ : ∃ n, y.length = n := ⟨_, rfl⟩
  rw [hxm] at hm hd
  rw [hyn] at hn hd
  rw [hxm, hyn]
  obtain ⟨a, ha⟩ := exists_ofFn equ.a_consts hd.a
  obtain ⟨b, hb⟩ := exists_ofFn equ.b_consts hd.b
  obtain ⟨γ, hγ⟩ := rect_iff.mp (⟨hd.rows, hd.cols⟩ : Rect _ _ equ.gamma)
  obtain ⟨x, rfl⟩ := exists_ofFn x hxm
  obtain ⟨y, rfl⟩ := exists_ofFn y hyn
  obtain ⟨pf, hpf, hty, h1, h2, -⟩ := (C37_quad e sch' cp crs equ).mp ⟨_, hacc⟩
  obtain ⟨w, hw⟩ := exists_pub (p := 1) (q := 1) (by rw [← h2, hd.b]) (by rw [← h1, hd.a]) hpf hty
    (hpi pf (by rw [hpf]; simp)) (hth pf (by rw [hpf]; simp))
  obtain ⟨r, hr, heq⟩ := QuadEqu.verify_pub (e := e) (sch := sch') hm hn ha hb hγ hu hv hw
  rw [hacc] at hr; cases hr
  have hspan := span_of_coms (publicPart_pub hw).1 fun d hd => by
    obtain ⟨_, hu0, hs⟩ := hx' d hd
    rw [hu] at hu0; cases hu0; exact hs
  have hspan' := span_of_coms (publicPart_pub hw).2.1 fun d hd => by
    obtain ⟨_, hv0, hs⟩ := hy' d hd
    rw [hv] at hv0; cases hv0; exact hs
  rw [hw]
  refine existsUnique_tape (p := 1) (q := 1) (by omega) (pub_injective _) (QuadEqu.view_eq hm hn ha hb hγ x y hu hv)
    (viewFn_inj ku.indep1 kv.indep1 ..) ?_
  rw [viewFn_range (ComT.pairL e) γ (fun _ => ku.span1 _) (fun _ => ku.span1 _) (fun _ => kv.span1 _) (ku.pair1 he),
    QuadEqu.value (e := e) ha hb hγ h]
  refine ⟨hspan, hspan', ?_, heq.mp rfl⟩
  refine ku.theta_span (kv.copair1 he) (fun _ => ku.span1 _)
    ⟨equ.target • (u1 + ⟨0, crs.g1_gen⟩), v1 + ⟨0, crs.g2_gen⟩, ku.span1 _, ?_⟩ hspan (heq.mp rfl)
  rw [map_smul]; rfl

/-- C54, MSMEG1, converse: every published proof is such a proof. -/
theorem C54_msmeg1_published [DecidableEq GT] (he : PrimeGroups e) {crs : CRS G1 G2 GT} (hs : SimulatedCrs e crs)
    (hg : crs.NonzeroGens) (equ : MSMEG1 F G1) (x : List G1) (y : List F) (hx : x ≠ []) (hy : y ≠ [])
    (hd : equ.Dims x.length y.length) (h : equ.Holds x y) (sch : Nat → Scheduler) (sch' : Scheduler)
    (t : Fin (2 * x.length + y.length + 2) → F) :
    ∃ cp rng', equ.commitAndProve sch x y crs (List.ofFn t) = .ok (cp, rng') ∧
      equ.verify e sch' cp crs = .ok true ∧
      (∀ pf ∈ cp.equ_proofs, pf.theta.length = 1) ∧
      (∀ d ∈ cp.ycoms.coms, ∃ v0 ∈ crs.v.head?, ∃ s : F, d = s • v0) := by
  obtain ⟨u0, u1, v0, v1, a1, t1, a2, t2, hu, hv, ku, kv⟩ := hs.keys he hg
  obtain ⟨cp, rng', hcp, hver⟩ := C02_msmeg1_complete e equ x y crs (List.ofFn t) sch sch' hx hy hd (by simp [hu])
    (by simp [hv]) h
  refine ⟨cp, rng', hcp, hver, ?_⟩
  have hm := List.length_pos_iff.mpr hx
  have hn := List.length_pos_iff.mpr hy
  obtain ⟨m, hxm⟩ : ∃ m, x.length = m := ⟨_, rfl⟩
  obtain ⟨n, hyn⟩ : ∃ n, y.length = n := ⟨_, rfl⟩
  revert t
  rw [hxm] at hm hd ⊢
  rw [hyn] at hn hd ⊢
  intro t hcp
  obtain ⟨a, ha⟩ := exists_ofFn equ.a_consts hd.a
  obtain ⟨b, hb⟩ := exists_ofFn equ.b_consts hd.b
  obtain ⟨γ, hγ⟩ := rect_iff.mp (⟨hd.rows, hd.cols⟩ : Rect _ _ equ.gamma)
  obtain ⟨x, rfl⟩ := exists_ofFn x hxm
  obtain ⟨y, rfl⟩ := exists_ofFn y hyn
  obtain ⟨E, hE⟩ := exists_tapeEquiv (F := F) (m := m) (n := n) (p := 2) (q := 1) (N := 2 * m + n + 2) (by omega)
  obtain ⟨r, rfl⟩ := E.surjective t
  have key := MSMEG1.view_eq (sch := sch) (crs := crs) hm hn ha hb hγ x y hu hv (E r) r (hE r)
  rw [viewOn, hcp] at key
  have hp := publicPart_pub (Except.ok.inj key)
  have hr := (viewFn_range (ComT.pairL e) (a := fun j => i1 (F := F) (a j)) (x := fun i => i1 (F := F) (x i)) (b := fun i => b i • (v1 + ⟨0, crs.g2_gen⟩))
    (y := fun j => y j • (v1 + ⟨0, crs.g2_gen⟩)) γ (fun _ => ku.span2 _) (fun _ => ku.span2 _)
    (fun _ => kv.span1 _) (ku.pair2 he) _).mp ⟨r, rfl⟩
  obtain ⟨pf, hpf, h1, h2, -⟩ := hp.2.2
  rw [hpf]
  refine ⟨by simp [h2], coms_of_span hv hp.2.1 hr.2.1⟩

/-- C54, MSMEG2, converse: every published proof is such a proof. -/
theorem C54_msmeg2_published [DecidableEq GT] (he : PrimeGroups e) {crs : CRS G1 G2 GT} (hs : SimulatedCrs e crs)
    (hg : crs.NonzeroGens) (equ : MSMEG2 F G2) (x : List F) (y : List G2) (hx : x ≠ []) (hy : y ≠ [])
    (hd : equ.Dims x.length y.length) (h : equ.Holds x y) (sch : Nat → Scheduler) (sch' : Scheduler)
    (t : Fin (x.length + 2 * y.length + 2) → F) :
    ∃ cp rng', equ.commitAndProve sch x y crs (List.ofFn t) = .ok (cp, rng') ∧
      equ.verify e sch' cp crs = .ok true ∧
      (∀ pf ∈ cp.equ_proofs, pf.pi.length = 1) ∧
      (∀ c ∈ cp.xcoms.coms, ∃ u0 ∈ crs.u.head?, ∃ s : F, c = s • u0) := by
  obtain ⟨u0, u1, v0, v1, a1, t1, a2, t2, hu, hv, ku, kv⟩ := hs.keys he hg
  obtain ⟨cp, rng', hcp, hver⟩ := C03_msmeg2_complete e equ x y crs (List.ofFn t) sch sch' hx hy hd (by simp [hu])
    (by simp [hv]) h
  refine ⟨cp, rng', hcp, hver, ?_⟩
  have hm := List.length_pos_iff.mpr hx
  have hn := List.length_pos_iff.mpr hy
  obtain ⟨m, hxm⟩ : ∃ m, x.length = m := ⟨_, rfl⟩
  obtain ⟨n, hyn⟩ : ∃ n, y.length = n := ⟨_, rfl⟩
  revert t
  rw [hxm] at hm hd ⊢
  rw [hyn] at hn hd ⊢
  intro t hcp
  obtain ⟨a, ha⟩ := exists_ofFn equ.a_consts hd.a
  obtain ⟨b, hb⟩ := exists_ofFn equ.b_consts hd.b
  obtain ⟨γ, hγ⟩ := rect_iff.mp (⟨hd.rows, hd.cols⟩ : Rect _ _ equ.gamma)
  obtain ⟨x, rfl⟩ := exists_ofFn x hxm
  obtain ⟨y, rfl⟩ := exists_ofFn y hyn
  obtain ⟨E, hE⟩ := exists_tapeEquiv (F := F) (m := m) (n := n) (p := 1) (q := 2) (N := m + 2 * n + 2) (by omega)
  obtain ⟨r, rfl⟩ := E.surjective t
  have key := MSMEG2.view_eq (sch := sch) (crs := crs) hm hn ha hb hγ x y hu hv (E r) r (hE r)
  rw [viewOn, hcp] at key
  have hp := publicPart_pub (Except.ok.inj key)
  have hr := (viewFn_range (ComT.pairL e) (a := fun j => a j • (u1 + ⟨0, crs.g1_gen⟩)) (x := fun i => x i • (u1 + ⟨0, crs.g1_gen⟩)) (b := fun i => i2 (F := F) (b i))
    (y := fun j => i2 (F := F) (y j)) γ (fun _ => ku.span1 _) (fun _ => ku.span1 _)
    (fun _ => kv.span2 _) (ku.pair1 he) _).mp ⟨r, rfl⟩
  obtain ⟨pf, hpf, h1, h2, -⟩ := hp.2.2
  rw [hpf]
  refine ⟨by simp [h1], coms_of_span hu hp.1 hr.1⟩

/-- C54, QuadEqu, converse: every published proof is such a proof. -/
theorem C54_quad_published [DecidableEq GT] (he : PrimeGroups e) {crs : CRS G1 G2 GT} (hs : SimulatedCrs e crs)
    (hg : crs.NonzeroGens) (equ : QuadEqu F) (x : List F) (y : List F) (hx : x ≠ []) (hy : y ≠ [])
    (hd : equ.Dims x.length y.length) (h : equ.Holds x y) (sch : Nat → Scheduler) (sch' : Scheduler)
    (t : Fin (x.length + y.length + 1) → F) :
    ∃ cp rng', equ.commitAndProve sch x y crs (List.ofFn t) = .ok (cp, rng') ∧
      equ.verify e sch' cp crs = .ok true ∧
      (∀ pf ∈ cp.equ_proofs, pf.pi.length = 1) ∧
      (∀ pf ∈ cp.equ_proofs, pf.theta.length = 1) ∧
      (∀ c ∈ cp.xcoms.coms, ∃ u0 ∈ crs.u.head?, ∃ s : F, c = s • u0) ∧
      (∀ d ∈ cp.ycoms.coms, ∃ v0 ∈ crs.v.head?, ∃ s : F, d = s • v0) := by
  obtain ⟨u0, u1, v0, v1, a1, t1, a2, t2, hu, hv, ku, kv⟩ := hs.keys he hg
  obtain ⟨cp, rng', hcp, hver⟩ := C04_quad_complete e equ x y crs (List.ofFn t) sch sch' hx hy hd (by simp [hu])
    (by simp [hv]) h
  refine ⟨cp, rng', hcp, hver, ?_⟩
  have hm := List.length_pos_iff.mpr hx
  have hn := List.length_pos_iff.mpr hy
  obtain ⟨m, hxm⟩ : ∃ m, x.length = m := ⟨_, rfl⟩
  obtain ⟨n, hyn⟩ : ∃ n, y.length = n := ⟨_, rfl⟩
  revert t
  rw [hxm] at hm hd ⊢
  rw [hyn] at hn hd ⊢
  intro t hcp
  obtain ⟨a, ha⟩ := exists_ofFn equ.a_consts hd.a
  obtain ⟨b, hb⟩ := exists_ofFn equ.b_consts hd.b
  obtain ⟨γ, hγ⟩ := rect_iff.mp (⟨hd.rows, hd.cols⟩ : Rect _ _ equ.gamma)
  obtain ⟨x, rfl⟩ := exists_ofFn x hxm
  obtain ⟨y, rfl⟩ := exists_ofFn y hyn
  obtain ⟨E, hE⟩ := exists_tapeEquiv (F := F) (m := m) (n := n) (p := 1) (q := 1) (N := m + n + 1) (by omega)
  obtain ⟨r, rfl⟩ := E.surjective t
  have key := QuadEqu.view_eq (sch := sch) (crs := crs) hm hn ha hb hγ x y hu hv (E r) r (hE r)
  rw [viewOn, hcp] at key
  have hp := publicPart_pub (Except.ok.inj key)
  have hr := (viewFn_range (ComT.pairL e) (a := fun j => a j • (u1 + ⟨0, crs.g1_gen⟩)) (x := fun i => x i • (u1 + ⟨0, crs.g1_gen⟩)) (b := fun i => b i • (v1 + ⟨0, crs.g2_gen⟩))
    (y := fun j => y j • (v1 + ⟨0, crs.g2_gen⟩)) γ (fun _ => ku.span1 _) (fun _ => ku.span1 _)
    (fun _ => kv.span1 _) (ku.pair1 he) _).mp ⟨r, rfl⟩
  obtain ⟨pf, hpf, h1, h2, -⟩ := hp.2.2
  rw [hpf]
  refine ⟨by simp [h1], by simp [h2], coms_of_span hu hp.1 hr.1, coms_of_span hv hp.2.1 hr.2.1⟩

example (sch : Nat → Scheduler) (t : Fin 4 → Ex.K) : ∃ cp rng',
    Ex.quad7.commitAndProve sch [2] [3, 4] Ex.sim7 (List.ofFn t) = .ok (cp, rng') ∧
    ∃! t' : Fin 4 → Ex.K, viewOn (fun rng => Ex.quad7.commitAndProve sch [0] [1, 0] Ex.sim7 rng) t' = .ok cp.publicPart := by
  obtain ⟨cp, rng', h, h1, h2, h3, h4, h5⟩ := C54_quad_published Ex.prime7 Ex.sim7_simulated Ex.sim7_nonzero Ex.quad7
    [2] [3, 4] (by simp) (by simp) Ex.quad7_dims Ex.quad7_holds sch (sch 0) t
  exact ⟨cp, rng', h, C54_quad Ex.prime7 Ex.sim7_simulated Ex.sim7_nonzero Ex.quad7 [0] [1, 0] (by simp) (by simp)
    Ex.quad7_dims Ex.quad7_holds' sch (sch 0) cp h1 h2 h3 h4 h5⟩

/-- C55, MSMEG1: on a simulated CRS the simulator gets every equation accepted, with every tape. -/
theorem C55_msmeg1 [DecidableEq GT] (he : PrimeGroups e) {p1 : G1} {p2 : G2} (h1 : p1 ≠ 0) (h2 : p2 ≠ 0)
    (a1 a2 t1 t2 : F) (equ : MSMEG1 F G1) (m n : Nat) (hm : 0 < m) (hn : 0 < n) (hd : equ.Dims m n) (sch : Scheduler)
    (t : Fin (2 * m + n + 2) → F) :
    let crs := assembleCrs e prepareSimulatedHidingKey p1 p2 a1 a2 t1 t2
    ∃ cp rng', equ.simulate m n t2 crs (List.ofFn t) = .ok (cp, rng') ∧ equ.verify e sch cp crs = .ok true := by
  obtain ⟨u0, u1, v0, v1, hu, hv, ku, kv⟩ := simulated_keys he h1 h2 (a1 := a1) (a2 := a2) (t1 := t1) (t2 := t2)
  intro crs
  obtain ⟨a, ha⟩ := exists_ofFn equ.a_consts hd.a
  obtain ⟨b, hb⟩ := exists_ofFn equ.b_consts hd.b
  obtain ⟨γ, hγ⟩ := rect_iff.mp (⟨hd.rows, hd.cols⟩ : Rect _ _ equ.gamma)
  obtain ⟨E, hE⟩ := exists_tapeEquiv (F := F) (m := m) (n := n) (p := 2) (q := 1) (N := 2 * m + n + 2) (by omega)
  obtain ⟨r, rfl⟩ := E.surjective t
  have key := MSMEG1.simulate_view (crs := crs) hm hn ha hb hγ t2 hu hv (E r) r (hE r)
  rw [viewOn, map_ok_iff] at key
  obtain ⟨⟨cp, rng'⟩, h, hp⟩ := key
  refine ⟨cp, rng', h, ?_⟩
  obtain ⟨c, hc, heq⟩ := MSMEG1.verify_pub (e := e) (sch := sch) hm hn ha hb hγ hu hv hp
  rw [hc, heq.mpr]
  have := ((simFn1_range (ComT.pairL e) (u := ![u0, u1]) (v0 := v0) (fun i => b i * t2) γ
    (a := fun j => i1 (F := F) (a j)) (τ := t2 • i1 (F := F) equ.target)
    (fun _ => ku.span2 _) (ku.span2 _) (ku.pair2 he) _).mp ⟨r, rfl⟩).2.2.2
  simp only [coreEquation, kv.lift, smul_smul]
  rw [this]
  congr 2
  rw [map_smul, LinearMap.smul_apply, ← map_smul]; rfl

/-- C55, MSMEG2: on a simulated CRS the simulator gets every equation accepted, with every tape. -/
theorem C55_msmeg2 [DecidableEq GT] (he : PrimeGroups e) {p1 : G1} {p2 : G2} (h1 : p1 ≠ 0) (h2 : p2 ≠ 0)
    (a1 a2 t1 t2 : F) (equ : MSMEG2 F G2) (m n : Nat) (hm : 0 < m) (hn : 0 < n) (hd : equ.Dims m n) (sch : Scheduler)
    (t : Fin (m + 2 * n + 2) → F) :
    let crs := assembleCrs e prepareSimulatedHidingKey p1 p2 a1 a2 t1 t2
    ∃ cp rng', equ.simulate m n t1 crs (List.ofFn t) = .ok (cp, rng') ∧ equ.verify e sch cp crs = .ok true := by
  obtain ⟨u0, u1, v0, v1, hu, hv, ku, kv⟩ := simulated_keys he h1 h2 (a1 := a1) (a2 := a2) (t1 := t1) (t2 := t2)
  intro crs
  obtain ⟨a, ha⟩ := exists_ofFn equ.a_consts hd.a
  obtain ⟨b, hb⟩ := exists_ofFn equ.b_consts hd.b
  obtain ⟨γ, hγ⟩ := rect_iff.mp (⟨hd.rows, hd.cols⟩ : Rect _ _ equ.gamma)
  obtain ⟨E, hE⟩ := exists_tapeEquiv (F := F) (m := m) (n := n) (p := 1) (q := 2) (N := m + 2 * n + 2) (by omega)
  obtain ⟨r, rfl⟩ := E.surjective t
  have key := MSMEG2.simulate_view (crs := crs) hm hn ha hb hγ t1 hu hv (E r) r (hE r)
  rw [viewOn, map_ok_iff] at key
  obtain ⟨⟨cp, rng'⟩, h, hp⟩ := key
  refine ⟨cp, rng', h, ?_⟩
  obtain ⟨c, hc, heq⟩ := MSMEG2.verify_pub (e := e) (sch := sch) hm hn ha hb hγ hu hv hp
  rw [hc, heq.mpr]
  have := ((simFn2_range (ComT.pairL e) (u0 := u0) (v := ![v0, v1]) (fun j => a j * t1) γ
    (b := fun i => i2 (F := F) (b i)) (τ := t1 • i2 (F := F) equ.target) (ku.pair1 he) _).mp ⟨r, rfl⟩).2.2.2
  simp only [coreEquation, ku.lift, smul_smul]
  rw [this]
  congr 2
  rw [map_smul, ← LinearMap.smul_apply, ← map_smul]; rfl

/-- C55, QuadEqu: on a simulated CRS the simulator gets every equation accepted, with every tape. -/
theorem C55_quad [DecidableEq GT] (he : PrimeGroups e) {p1 : G1} {p2 : G2} (h1 : p1 ≠ 0) (h2 : p2 ≠ 0)
    (a1 a2 t1 t2 : F) (equ : QuadEqu F) (m n : Nat) (hm : 0 < m) (hn : 0 < n) (hd : equ.Dims m n) (sch : Scheduler)
    (t : Fin (m + n + 1) → F) :
    let crs := assembleCrs e prepareSimulatedHidingKey p1 p2 a1 a2 t1 t2
    ∃ cp rng', equ.simulate m n t1 t2 crs (List.ofFn t) = .ok (cp, rng') ∧ equ.verify e sch cp crs = .ok true := by
  obtain ⟨u0, u1, v0, v1, hu, hv, ku, kv⟩ := simulated_keys he h1 h2 (a1 := a1) (a2 := a2) (t1 := t1) (t2 := t2)
  intro crs
  obtain ⟨a, ha⟩ := exists_ofFn equ.a_consts hd.a
  obtain ⟨b, hb⟩ := exists_ofFn equ.b_consts hd.b
  obtain ⟨γ, hγ⟩ := rect_iff.mp (⟨hd.rows, hd.cols⟩ : Rect _ _ equ.gamma)
  obtain ⟨E, hE⟩ := exists_tapeEquiv (F := F) (m := m) (n := n) (p := 1) (q := 1) (N := m + n + 1) (by omega)
  obtain ⟨r, rfl⟩ := E.surjective t
  have key := QuadEqu.simulate_view (crs := crs) hm hn ha hb hγ t1 t2 hu hv (E r) r (hE r)
  rw [viewOn, map_ok_iff] at key
  obtain ⟨⟨cp, rng'⟩, h, hp⟩ := key
  refine ⟨cp, rng', h, ?_⟩
  obtain ⟨c, hc, heq⟩ := QuadEqu.verify_pub (e := e) (sch := sch) hm hn ha hb hγ hu hv hp
  rw [hc, heq.mpr]
  have hsp : ∀ r : F, r • t1 • u0 ∈ Submodule.span F (Set.range ![u0]) := fun r => by
    rw [smul_smul]; exact mem_span1 _ _
  have := ((simFn1_range (ComT.pairL e) (u := ![u0]) (v0 := v0) (fun i => b i * t2) γ
    (a := fun j => a j • t1 • u0) (τ := t2 • equ.target • t1 • u0)
    (fun _ => hsp _) (Submodule.smul_mem _ _ (hsp _)) (ku.pair1 he) _).mp ⟨r, rfl⟩).2.2.2
  simp only [coreEquation, kv.lift, ku.lift, smul_smul] at this ⊢
  rw [this]
  congr 2
  simp only [tQuad, LinearMap.toSpanSingleton_apply, map_smul, LinearMap.smul_apply, smul_smul]
  congr 1
  ring

/-- A proof of a false equation, with no variables that satisfy it: `0 = 1`. -/
example (sch : Scheduler) (t : Fin 3 → Ex.K) : ∃ cp rng',
    QuadEqu.simulate (⟨[0], [0], [[0]], 1⟩ : QuadEqu Ex.K) 1 1 5 6 Ex.sim7 (List.ofFn t) = .ok (cp, rng') ∧
      QuadEqu.verify Ex.e7 sch (⟨[0], [0], [[0]], 1⟩ : QuadEqu Ex.K) cp Ex.sim7 = .ok true :=
  C55_quad Ex.prime7 (p1 := 1) (p2 := 2) (by decide) (by decide) 3 4 5 6 _ 1 1 (by decide) (by decide)
    ⟨rfl, rfl, rfl, by simp⟩ sch t

/-! ### Instances -/

namespace Ex

example (sch : Nat → Scheduler) (t : Fin 6 → K) : ∃ cp rng',
    msm1_7.commitAndProve sch [2] [3, 4] sim7 (List.ofFn t) = .ok (cp, rng') ∧
    ∃! t' : Fin 6 → K, viewOn (fun rng => msm1_7.commitAndProve sch [0] [1, 0] sim7 rng) t' = .ok cp.publicPart := by
  obtain ⟨cp, rng', h, h1, h2, h3⟩ := C54_msmeg1_published prime7 sim7_simulated sim7_nonzero msm1_7
    [2] [3, 4] (by simp) (by simp) msm1_7_dims msm1_7_holds sch (sch 0) t
  exact ⟨cp, rng', h, C54_msmeg1 prime7 sim7_simulated sim7_nonzero msm1_7 [0] [1, 0] (by simp) (by simp)
    msm1_7_dims msm1_7_holds' sch (sch 0) cp h1 h2 h3⟩

example (sch : Nat → Scheduler) (t : Fin 7 → K) : ∃ cp rng',
    msm2_7.commitAndProve sch [2] [3, 4] sim7 (List.ofFn t) = .ok (cp, rng') ∧
    ∃! t' : Fin 7 → K, viewOn (fun rng => msm2_7.commitAndProve sch [0] [1, 0] sim7 rng) t' = .ok cp.publicPart := by
  obtain ⟨cp, rng', h, h1, h2, h3⟩ := C54_msmeg2_published prime7 sim7_simulated sim7_nonzero msm2_7
    [2] [3, 4] (by simp) (by simp) msm2_7_dims msm2_7_holds sch (sch 0) t
  exact ⟨cp, rng', h, C54_msmeg2 prime7 sim7_simulated sim7_nonzero msm2_7 [0] [1, 0] (by simp) (by simp)
    msm2_7_dims msm2_7_holds' sch (sch 0) cp h1 h2 h3⟩

/-- These equations have no solution. -/
example := C55_msmeg1 prime7 (p1 := 1) (p2 := 2) (by decide) (by decide) 3 4 5 6 (⟨[0], [0], [[0]], 1⟩ : MSMEG1 K K) 1 1
  (by decide) (by decide) ⟨rfl, rfl, rfl, by simp⟩
example := C55_msmeg2 prime7 (p1 := 1) (p2 := 2) (by decide) (by decide) 3 4 5 6 (⟨[0], [0], [[0]], 1⟩ : MSMEG2 K K) 1 1
  (by decide) (by decide) ⟨rfl, rfl, rfl, by simp⟩

end Ex

end GS
