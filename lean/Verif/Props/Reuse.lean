import Verif.Spec.Reuse
import Verif.Props.Hiding
import Verif.Props.Example

/-!
# C89: using a state of the random number generator twice

`pairOn` is in `Verif/Spec/Reuse.lean`, `emb x = (O, x)` in `Verif/Spec/Accept.lean`.
-/

set_option linter.unusedSectionVars false

namespace GS
variable {F G1 G2 GT : Type} [Field F] [AddCommGroup G1] [Module F G1] [AddCommGroup G2] [Module F G2]
  [AddCommGroup GT] [Module F GT] {e : G1 →ₗ[F] G2 →ₗ[F] GT} {crs : CRS G1 G2 GT}

section lists
variable {G A R : Type} [AddCommGroup G]

theorem zip_diff {f : A → R → G} {k : A → A → G} (h : ∀ a b r, f a r - f b r = k a b) : ∀ (x' x : List A) (r : List R),
    x'.length = x.length → r.length = x.length →
    List.zipWith (fun a b => a - b) (List.zipWith f x' r) (List.zipWith f x r) = List.zipWith k x' x
  | [], [], _, _, _ => by simp
  | a :: x', b :: x, r :: rs, h1, h2 => by
    simp only [List.zipWith_cons_cons, h, zip_diff h x' x rs (by simpa using h1) (by simpa using h2)]
  | [], _ :: _, _, h1, _ => by simp at h1
  | _ :: _, [], _, h1, _ => by simp at h1
  | _ :: _, _ :: _, [], _, h2 => by simp at h2

theorem zip_inj {f : A → R → G} (h : ∀ a b r, f a r = f b r → a = b) : ∀ (x' x : List A) (r : List R),
    x'.length = x.length → r.length = x.length → List.zipWith f x' r = List.zipWith f x r → x' = x
  | [], [], _, _, _, _ => rfl
  | a :: x', b :: x, r :: rs, h1, h2, h3 => by
    simp only [List.zipWith_cons_cons, List.cons.injEq] at h3
    rw [h a b r h3.1, zip_inj h x' x rs (by simpa using h1) (by simpa using h2) h3.2]
  | [], _ :: _, _, h1, _, _ => by simp at h1
  | _ :: _, [], _, h1, _, _ => by simp at h1
  | _ :: _, _ :: _, [], _, h2, _ => by simp at h2

/-- Two lists with given differences to equal lists are equal. -/
theorem diff_unique : ∀ (c d c' : List G), c.length = c'.length → d.length = c'.length →
    List.zipWith (fun a b => a - b) c c' = List.zipWith (fun a b => a - b) d c' → c = d
  | [], [], [], _, _, _ => rfl
  | a :: c, b :: d, k :: c', h1, h2, h3 => by
    simp only [List.zipWith_cons_cons, List.cons.injEq] at h3
    rw [sub_left_inj.mp h3.1, diff_unique c d c' (by simpa using h1) (by simpa using h2) h3.2]
  | [], _, _ :: _, h1, _, _ => by simp at h1
  | _ :: _, _, [], h1, _, _ => by simp at h1
  | [], _ :: _, [], _, h2, _ => by simp at h2
  | _ :: _, [], _ :: _, _, h2, _ => by simp at h2

end lists

theorem drawPairs_len {ρ : Type} (f : ρ → F × ρ) (n : Nat) (s : ρ) : (drawPairs f n s).1.length = n := by
  induction n generalizing s with
  | zero => rfl
  | succ n ih => simp [drawPairs, ih]

theorem drawF_len {ρ : Type} (f : ρ → F × ρ) (n : Nat) (s : ρ) : (drawF f n s).1.length = n := by
  induction n generalizing s with
  | zero => rfl
  | succ n ih => simp [drawF, ih]

section same
variable {ρ : Type} [Rng ρ F G1 G2] {rng r r' : ρ}

/-- C89, `batch_commit_G1`: the differences of the commitments are the embedded differences of the values. -/
theorem C89_batch_G1 (x x' : List G1) (hl : x'.length = x.length) {c c' : Commit F G1}
    (h : batchCommitG1 x crs rng = .ok (c, r)) (h' : batchCommitG1 x' crs rng = .ok (c', r')) :
    r' = r ∧ c'.rand = c.rand ∧
    List.zipWith (fun a b => a - b) c'.coms c.coms = List.zipWith (fun a b => emb (a - b)) x' x ∧
    (c'.coms = c.coms ↔ x' = x) := by
  rw [batchCommitG1_iff] at h h'
  obtain ⟨-, u0, u1, hu, hc⟩ := h
  obtain ⟨-, w0, w1, hw, hc'⟩ := h'
  rw [hu] at hw
  cases hw
  rw [hl] at hc'
  cases hc
  cases hc'
  have hk : ∀ (a b : G1) (rs : F × F), (Com1.linearMap a + rs.1 • u0 + rs.2 • u1) - (Com1.linearMap b + rs.1 • u0 + rs.2 • u1) =
      emb (a - b) := by
    intro a b rs
    have : (emb (a - b) : Com G1) = Com1.linearMap a - Com1.linearMap b := by ext <;> simp [emb, Com1.linearMap]
    rw [this]
    abel
  refine ⟨rfl, rfl, zip_diff hk x' x _ hl (drawPairs_len ..), fun heq => ?_, fun heq => by rw [heq]⟩
  refine zip_inj (fun a b rs hab => ?_) x' x _ hl (drawPairs_len ..) heq
  have := hk a b rs
  rw [hab, sub_self] at this
  exact sub_eq_zero.mp (congrArg Com.c1 this).symm

/-- C89, `batch_commit_G2`: the differences of the commitments are the embedded differences of the values. -/
theorem C89_batch_G2 (x x' : List G2) (hl : x'.length = x.length) {c c' : Commit F G2}
    (h : batchCommitG2 x crs rng = .ok (c, r)) (h' : batchCommitG2 x' crs rng = .ok (c', r')) :
    r' = r ∧ c'.rand = c.rand ∧
    List.zipWith (fun a b => a - b) c'.coms c.coms = List.zipWith (fun a b => emb (a - b)) x' x ∧
    (c'.coms = c.coms ↔ x' = x) := by
  rw [batchCommitG2_iff] at h h'
  obtain ⟨-, u0, u1, hu, hc⟩ := h
  obtain ⟨-, w0, w1, hw, hc'⟩ := h'
  rw [hu] at hw
  cases hw
  rw [hl] at hc'
  cases hc
  cases hc'
  have hk : ∀ (a b : G2) (rs : F × F), (Com2.linearMap a + rs.1 • u0 + rs.2 • u1) - (Com2.linearMap b + rs.1 • u0 + rs.2 • u1) =
      emb (a - b) := by
    intro a b rs
    have : (emb (a - b) : Com G2) = Com2.linearMap a - Com2.linearMap b := by ext <;> simp [emb, Com2.linearMap]
    rw [this]
    abel
  refine ⟨rfl, rfl, zip_diff hk x' x _ hl (drawPairs_len ..), fun heq => ?_, fun heq => by rw [heq]⟩
  refine zip_inj (fun a b rs hab => ?_) x' x _ hl (drawPairs_len ..) heq
  have := hk a b rs
  rw [hab, sub_self] at this
  exact sub_eq_zero.mp (congrArg Com.c1 this).symm

/-- C89, `batch_commit_scalar_to_B1`: the differences of the commitments are the differences of the scalars times a fixed element of
the CRS. -/
theorem C89_batch_scalar_B1 (x x' : List F) (hl : x'.length = x.length) {c c' : Commit F G1}
    (h : batchCommitScalarToB1 x crs rng = .ok (c, r)) (h' : batchCommitScalarToB1 x' crs rng = .ok (c', r')) :
    r' = r ∧ c'.rand = c.rand ∧ ∃ u0 u1 us, crs.u = u0 :: u1 :: us ∧
    List.zipWith (fun a b => a - b) c'.coms c.coms = List.zipWith (fun a b => (a - b) • (u1 + emb crs.g1_gen)) x' x ∧
    (u1 + emb crs.g1_gen ≠ 0 → (c'.coms = c.coms ↔ x' = x)) := by
  rw [batchCommitScalarToB1_iff] at h h'
  obtain ⟨-, u0, u1, us, hu, hc⟩ := h
  obtain ⟨-, w0, w1, ws, hw, hc'⟩ := h'
  rw [hu] at hw
  cases hw
  rw [hl] at hc'
  cases hc
  cases hc'
  have hk : ∀ (a b r : F), (a • (u1 + Com1.linearMap crs.g1_gen) + r • u0) - (b • (u1 + Com1.linearMap crs.g1_gen) + r • u0) =
      (a - b) • (u1 + emb crs.g1_gen) := by
    intro a b r
    rw [sub_smul, add_sub_add_right_eq_sub]
    rfl
  refine ⟨rfl, rfl, u0, u1, us, hu, zip_diff hk x' x _ hl (drawF_len ..), fun hne => ⟨fun heq => ?_, fun heq => by rw [heq]⟩⟩
  refine zip_inj (fun a b r hab => ?_) x' x _ hl (drawF_len ..) heq
  have := hk a b r
  rw [hab, sub_self] at this
  exact sub_eq_zero.mp ((smul_eq_zero.mp this.symm).resolve_right hne)

/-- C89, `batch_commit_scalar_to_B2`: the differences of the commitments are the differences of the scalars times a fixed element of
the CRS. -/
theorem C89_batch_scalar_B2 (x x' : List F) (hl : x'.length = x.length) {c c' : Commit F G2}
    (h : batchCommitScalarToB2 x crs rng = .ok (c, r)) (h' : batchCommitScalarToB2 x' crs rng = .ok (c', r')) :
    r' = r ∧ c'.rand = c.rand ∧ ∃ u0 u1 us, crs.v = u0 :: u1 :: us ∧
    List.zipWith (fun a b => a - b) c'.coms c.coms = List.zipWith (fun a b => (a - b) • (u1 + emb crs.g2_gen)) x' x ∧
    (u1 + emb crs.g2_gen ≠ 0 → (c'.coms = c.coms ↔ x' = x)) := by
  rw [batchCommitScalarToB2_iff] at h h'
  obtain ⟨-, u0, u1, us, hu, hc⟩ := h
  obtain ⟨-, w0, w1, ws, hw, hc'⟩ := h'
  rw [hu] at hw
  cases hw
  rw [hl] at hc'
  cases hc
  cases hc'
  have hk : ∀ (a b r : F), (a • (u1 + Com2.linearMap crs.g2_gen) + r • u0) - (b • (u1 + Com2.linearMap crs.g2_gen) + r • u0) =
      (a - b) • (u1 + emb crs.g2_gen) := by
    intro a b r
    rw [sub_smul, add_sub_add_right_eq_sub]
    rfl
  refine ⟨rfl, rfl, u0, u1, us, hu, zip_diff hk x' x _ hl (drawF_len ..), fun hne => ⟨fun heq => ?_, fun heq => by rw [heq]⟩⟩
  refine zip_inj (fun a b r hab => ?_) x' x _ hl (drawF_len ..) heq
  have := hk a b r
  rw [hab, sub_self] at this
  exact sub_eq_zero.mp ((smul_eq_zero.mp this.symm).resolve_right hne)

end same

/-- C89: with a CRS of `generate_crs` the fixed elements are not zero, so equal commitments mean equal scalars. -/
theorem C89_generated (hs : GeneratedCrs e crs) (hg : crs.NonzeroGens) :
    (∀ u0 u1 us, crs.u = u0 :: u1 :: us → u1 + emb crs.g1_gen ≠ 0) ∧
    (∀ v0 v1 vs, crs.v = v0 :: v1 :: vs → v1 + emb crs.g2_gen ≠ 0) := by
  obtain ⟨p1, p2, a1, a2, t1, t2, rfl⟩ := generated_iff.mp hs
  have key : ∀ {G : Type} [AddCommGroup G] [Module F G] (p : G) (a t : F), p ≠ 0 → (⟨t • p, t • a • p⟩ : Com G) + emb p ≠ 0 := by
    intro G _ _ p a t hp h
    have h0 : t • p + 0 = 0 := congrArg Com.c0 h
    have h1 : t • a • p + p = 0 := congrArg Com.c1 h
    rw [add_zero] at h0
    rw [smul_comm, h0, smul_zero, zero_add] at h1
    exact hp h1
  rw [assembleReal_eq] at hg ⊢
  constructor
  · rintro u0 u1 us h
    cases h
    exact key p1 a1 t1 hg.1
  · rintro u0 u1 us h
    cases h
    exact key p2 a2 t2 hg.2

/-! ### Nothing else is revealed on a hiding CRS -/

theorem comsOn_iff {G : Type} {N : Nat} {run : List F → Res (Commit F G × List F)} {t : Fin N → F} {l : List (Com G)} :
    comsOn run t = .ok l ↔ ∃ c r, run (List.ofFn t) = .ok (c, r) ∧ c.coms = l := by
  unfold comsOn
  cases h : run (List.ofFn t) with
  | error p => simp [Except.map]
  | ok a =>
    obtain ⟨c, r⟩ := a
    simp [Except.map]

theorem sameViews_pair {G : Type} [AddCommGroup G] {N : Nat} {f f' g g' : List F → Res (Commit F G × List F)}
    (h : SameViews (N := N) (comsOn f) (comsOn g)) (hf : ∀ t : Fin N → F, ∃ l, comsOn f' t = .ok l)
    (hg : ∀ t : Fin N → F, ∃ l, comsOn g' t = .ok l)
    (hd : ∀ t t' : Fin N → F, ∀ a b b', comsOn f t = .ok a → comsOn f' t = .ok b → comsOn g t' = .ok a → comsOn g' t' = .ok b' → b = b') :
    SameViews (N := N) (pairOn f f') (pairOn g g') := by
  obtain ⟨φ, hφ⟩ := h
  refine ⟨φ, fun t => ?_⟩
  obtain ⟨a, h1, h2⟩ := hφ t
  obtain ⟨b, hb⟩ := hf t
  obtain ⟨b', hb'⟩ := hg (φ t)
  obtain rfl := hd t (φ t) a b b' h1 hb h2 hb'
  refine ⟨(a, b), ?_, ?_⟩
  · simp only [pairOn, h1, hb]
    rfl
  · simp only [pairOn, h2, hb']
    rfl

/-- C89, `batch_commit_G1`: on a hiding CRS the two commitments are distributed the same for all pairs of lists with the same differences. -/
theorem C89_nothing_else_G1 (he : PrimeGroups e) (hs : SimulatedCrs e crs) (hg : crs.NonzeroGens) (x x' y y' : List G1) (hx : x ≠ [])
    (hx' : x'.length = x.length) (hy : y.length = x.length) (hy' : y'.length = x.length)
    (hdiff : List.zipWith (fun a b => a - b) x' x = List.zipWith (fun a b => a - b) y' y) :
    SameViews (N := 2 * x.length)
      (pairOn (fun rng => batchCommitG1 (F := F) x crs rng) (fun rng => batchCommitG1 (F := F) x' crs rng))
      (pairOn (fun rng => batchCommitG1 (F := F) y crs rng) (fun rng => batchCommitG1 (F := F) y' crs rng)) := by
  have hlen : crs.u.length = 2 := by
    obtain ⟨u0, u1, v0, v1, a1, t1, a2, t2, hu, hv, -⟩ := hs.keys he hg
    rw [hu]; rfl
  have ok : ∀ (z : List G1) (t : Fin (2 * x.length) → F), z ≠ [] → ∃ l, comsOn (fun rng => batchCommitG1 (F := F) z crs rng) t = .ok l := by
      intro z t hz
      obtain ⟨u0, u1, hu⟩ := List.length_eq_two.mp hlen
      exact ⟨_, comsOn_iff.mpr ⟨_, _, batchCommitG1_iff.mpr ⟨hz, u0, u1, hu, rfl⟩, rfl⟩⟩
  have ne : ∀ z : List G1, z.length = x.length → z ≠ [] := fun z hz =>
    List.length_pos_iff.mp (hz ▸ List.length_pos_iff.mpr hx)
  have len : ∀ (z : List G1) (rng : List F) c r, batchCommitG1 (F := F) z crs rng = .ok (c, r) → c.coms.length = z.length := by
    intro z rng c r h
    rw [batchCommitG1_iff] at h
    obtain ⟨-, u0, u1, -, hr⟩ := h
    cases hr
    simp only [List.length_zipWith, drawPairs_len, Nat.min_self]
  refine sameViews_pair ((C17_batch he hs hg).1 x y hx hy) (fun t => ok x' t (ne x' hx')) (fun t => ok y' t (ne y' hy')) ?_
  intro t t' a b b' h1 h2 h3 h4
  obtain ⟨c, r, hc, rfl⟩ := comsOn_iff.mp h1
  obtain ⟨c', r', hc', rfl⟩ := comsOn_iff.mp h2
  obtain ⟨d, s, hd, hda⟩ := comsOn_iff.mp h3
  obtain ⟨d', s', hd', rfl⟩ := comsOn_iff.mp h4
  refine diff_unique _ _ c.coms ?_ ?_ ?_
  · rw [len _ _ _ _ hc', len _ _ _ _ hc, hx']
  · rw [len _ _ _ _ hd', len _ _ _ _ hc, hy']
  · have hx' := hx'
    obtain ⟨-, -, k1, -⟩ := C89_batch_G1 x x' hx' hc hc'
    obtain ⟨-, -, k2, -⟩ := C89_batch_G1 y y' (by rw [hy', hy]) hd hd'
    have e1 : List.zipWith (fun a b => (emb (a - b) : Com G1)) x' x = List.zipWith (fun a b => (emb (a - b) : Com G1)) y' y := by
      have h2 := congrArg (List.map (emb : G1 → Com G1)) hdiff
      simpa only [List.map_zipWith] using h2
    rw [k1, e1, ← k2, hda]

/-- C89, `batch_commit_G2`: on a hiding CRS the two commitments are distributed the same for all pairs of lists with the same differences. -/
theorem C89_nothing_else_G2 (he : PrimeGroups e) (hs : SimulatedCrs e crs) (hg : crs.NonzeroGens) (x x' y y' : List G2) (hx : x ≠ [])
    (hx' : x'.length = x.length) (hy : y.length = x.length) (hy' : y'.length = x.length)
    (hdiff : List.zipWith (fun a b => a - b) x' x = List.zipWith (fun a b => a - b) y' y) :
    SameViews (N := 2 * x.length)
      (pairOn (fun rng => batchCommitG2 (F := F) x crs rng) (fun rng => batchCommitG2 (F := F) x' crs rng))
      (pairOn (fun rng => batchCommitG2 (F := F) y crs rng) (fun rng => batchCommitG2 (F := F) y' crs rng)) := by
  have hlen : crs.v.length = 2 := by
    obtain ⟨u0, u1, v0, v1, a1, t1, a2, t2, hu, hv, -⟩ := hs.keys he hg
    rw [hv]; rfl
  have ok : ∀ (z : List G2) (t : Fin (2 * x.length) → F), z ≠ [] → ∃ l, comsOn (fun rng => batchCommitG2 (F := F) z crs rng) t = .ok l := by
      intro z t hz
      obtain ⟨u0, u1, hu⟩ := List.length_eq_two.mp hlen
      exact ⟨_, comsOn_iff.mpr ⟨_, _, batchCommitG2_iff.mpr ⟨hz, u0, u1, hu, rfl⟩, rfl⟩⟩
  have ne : ∀ z : List G2, z.length = x.length → z ≠ [] := fun z hz =>
    List.length_pos_iff.mp (hz ▸ List.length_pos_iff.mpr hx)
  have len : ∀ (z : List G2) (rng : List F) c r, batchCommitG2 (F := F) z crs rng = .ok (c, r) → c.coms.length = z.length := by
    intro z rng c r h
    rw [batchCommitG2_iff] at h
    obtain ⟨-, u0, u1, -, hr⟩ := h
    cases hr
    simp only [List.length_zipWith, drawPairs_len, Nat.min_self]
  refine sameViews_pair ((C17_batch he hs hg).2.1 x y hx hy) (fun t => ok x' t (ne x' hx')) (fun t => ok y' t (ne y' hy')) ?_
  intro t t' a b b' h1 h2 h3 h4
  obtain ⟨c, r, hc, rfl⟩ := comsOn_iff.mp h1
  obtain ⟨c', r', hc', rfl⟩ := comsOn_iff.mp h2
  obtain ⟨d, s, hd, hda⟩ := comsOn_iff.mp h3
  obtain ⟨d', s', hd', rfl⟩ := comsOn_iff.mp h4
  refine diff_unique _ _ c.coms ?_ ?_ ?_
  · rw [len _ _ _ _ hc', len _ _ _ _ hc, hx']
  · rw [len _ _ _ _ hd', len _ _ _ _ hc, hy']
  · have hx' := hx'
    obtain ⟨-, -, k1, -⟩ := C89_batch_G2 x x' hx' hc hc'
    obtain ⟨-, -, k2, -⟩ := C89_batch_G2 y y' (by rw [hy', hy]) hd hd'
    have e1 : List.zipWith (fun a b => (emb (a - b) : Com G2)) x' x = List.zipWith (fun a b => (emb (a - b) : Com G2)) y' y := by
      have h2 := congrArg (List.map (emb : G2 → Com G2)) hdiff
      simpa only [List.map_zipWith] using h2
    rw [k1, e1, ← k2, hda]

/-- C89, `batch_commit_scalar_to_B1`: on a hiding CRS the two commitments are distributed the same for all pairs of lists with the same differences. -/
theorem C89_nothing_else_scalar_B1 (he : PrimeGroups e) (hs : SimulatedCrs e crs) (hg : crs.NonzeroGens) (x x' y y' : List F) (hx : x ≠ [])
    (hx' : x'.length = x.length) (hy : y.length = x.length) (hy' : y'.length = x.length)
    (hdiff : List.zipWith (fun a b => a - b) x' x = List.zipWith (fun a b => a - b) y' y) :
    SameViews (N := x.length)
      (pairOn (fun rng => batchCommitScalarToB1 x crs rng) (fun rng => batchCommitScalarToB1 x' crs rng))
      (pairOn (fun rng => batchCommitScalarToB1 y crs rng) (fun rng => batchCommitScalarToB1 y' crs rng)) := by
  have hlen : crs.u.length = 2 := by
    obtain ⟨u0, u1, v0, v1, a1, t1, a2, t2, hu, hv, -⟩ := hs.keys he hg
    rw [hu]; rfl
  have ok : ∀ (z : List F) (t : Fin (x.length) → F), z ≠ [] → ∃ l, comsOn (fun rng => batchCommitScalarToB1 z crs rng) t = .ok l := by
      intro z t hz
      obtain ⟨u0, u1, us, hu⟩ := cons2_of_length (l := crs.u) (by rw [hlen])
      exact ⟨_, comsOn_iff.mpr ⟨_, _, batchCommitScalarToB1_iff.mpr ⟨hz, u0, u1, us, hu, rfl⟩, rfl⟩⟩
  have ne : ∀ z : List F, z.length = x.length → z ≠ [] := fun z hz =>
    List.length_pos_iff.mp (hz ▸ List.length_pos_iff.mpr hx)
  have len : ∀ (z : List F) (rng : List F) c r, batchCommitScalarToB1 z crs rng = .ok (c, r) → c.coms.length = z.length := by
    intro z rng c r h
    rw [batchCommitScalarToB1_iff] at h
    obtain ⟨-, u0, u1, us, -, hr⟩ := h
    cases hr
    simp only [List.length_zipWith, drawF_len, Nat.min_self]
  refine sameViews_pair ((C17_batch he hs hg).2.2.1 x y hx hy) (fun t => ok x' t (ne x' hx')) (fun t => ok y' t (ne y' hy')) ?_
  intro t t' a b b' h1 h2 h3 h4
  obtain ⟨c, r, hc, rfl⟩ := comsOn_iff.mp h1
  obtain ⟨c', r', hc', rfl⟩ := comsOn_iff.mp h2
  obtain ⟨d, s, hd, hda⟩ := comsOn_iff.mp h3
  obtain ⟨d', s', hd', rfl⟩ := comsOn_iff.mp h4
  refine diff_unique _ _ c.coms ?_ ?_ ?_
  · rw [len _ _ _ _ hc', len _ _ _ _ hc, hx']
  · rw [len _ _ _ _ hd', len _ _ _ _ hc, hy']
  · have hx' := hx'
    obtain ⟨-, -, u0, u1, us, hu, k1, -⟩ := C89_batch_scalar_B1 x x' hx' hc hc'
    obtain ⟨-, -, w0, w1, ws, hw, k2, -⟩ := C89_batch_scalar_B1 y y' (by rw [hy', hy]) hd hd'
    rw [hu] at hw
    cases hw
    have e1 : List.zipWith (fun a b => (a - b) • (u1 + emb crs.g1_gen)) x' x = List.zipWith (fun a b => (a - b) • (u1 + emb crs.g1_gen)) y' y := by
      have h2 := congrArg (List.map fun k : F => k • (u1 + emb crs.g1_gen)) hdiff
      simpa only [List.map_zipWith] using h2
    rw [k1, e1, ← k2, hda]

/-- C89, `batch_commit_scalar_to_B2`: on a hiding CRS the two commitments are distributed the same for all pairs of lists with the same differences. -/
theorem C89_nothing_else_scalar_B2 (he : PrimeGroups e) (hs : SimulatedCrs e crs) (hg : crs.NonzeroGens) (x x' y y' : List F) (hx : x ≠ [])
    (hx' : x'.length = x.length) (hy : y.length = x.length) (hy' : y'.length = x.length)
    (hdiff : List.zipWith (fun a b => a - b) x' x = List.zipWith (fun a b => a - b) y' y) :
    SameViews (N := x.length)
      (pairOn (fun rng => batchCommitScalarToB2 x crs rng) (fun rng => batchCommitScalarToB2 x' crs rng))
      (pairOn (fun rng => batchCommitScalarToB2 y crs rng) (fun rng => batchCommitScalarToB2 y' crs rng)) := by
  have hlen : crs.v.length = 2 := by
    obtain ⟨u0, u1, v0, v1, a1, t1, a2, t2, hu, hv, -⟩ := hs.keys he hg
    rw [hv]; rfl
  have ok : ∀ (z : List F) (t : Fin (x.length) → F), z ≠ [] → ∃ l, comsOn (fun rng => batchCommitScalarToB2 z crs rng) t = .ok l := by
      intro z t hz
      obtain ⟨u0, u1, us, hu⟩ := cons2_of_length (l := crs.v) (by rw [hlen])
      exact ⟨_, comsOn_iff.mpr ⟨_, _, batchCommitScalarToB2_iff.mpr ⟨hz, u0, u1, us, hu, rfl⟩, rfl⟩⟩
  have ne : ∀ z : List F, z.length = x.length → z ≠ [] := fun z hz =>
    List.length_pos_iff.mp (hz ▸ List.length_pos_iff.mpr hx)
  have len : ∀ (z : List F) (rng : List F) c r, batchCommitScalarToB2 z crs rng = .ok (c, r) → c.coms.length = z.length := by
    intro z rng c r h
    rw [batchCommitScalarToB2_iff] at h
    obtain ⟨-, u0, u1, us, -, hr⟩ := h
    cases hr
    simp only [List.length_zipWith, drawF_len, Nat.min_self]
  refine sameViews_pair ((C17_batch he hs hg).2.2.2 x y hx hy) (fun t => ok x' t (ne x' hx')) (fun t => ok y' t (ne y' hy')) ?_
  intro t t' a b b' h1 h2 h3 h4
  obtain ⟨c, r, hc, rfl⟩ := comsOn_iff.mp h1
  obtain ⟨c', r', hc', rfl⟩ := comsOn_iff.mp h2
  obtain ⟨d, s, hd, hda⟩ := comsOn_iff.mp h3
  obtain ⟨d', s', hd', rfl⟩ := comsOn_iff.mp h4
  refine diff_unique _ _ c.coms ?_ ?_ ?_
  · rw [len _ _ _ _ hc', len _ _ _ _ hc, hx']
  · rw [len _ _ _ _ hd', len _ _ _ _ hc, hy']
  · have hx' := hx'
    obtain ⟨-, -, u0, u1, us, hu, k1, -⟩ := C89_batch_scalar_B2 x x' hx' hc hc'
    obtain ⟨-, -, w0, w1, ws, hw, k2, -⟩ := C89_batch_scalar_B2 y y' (by rw [hy', hy]) hd hd'
    rw [hu] at hw
    cases hw
    have e1 : List.zipWith (fun a b => (a - b) • (u1 + emb crs.g2_gen)) x' x = List.zipWith (fun a b => (a - b) • (u1 + emb crs.g2_gen)) y' y := by
      have h2 := congrArg (List.map fun k : F => k • (u1 + emb crs.g2_gen)) hdiff
      simpa only [List.map_zipWith] using h2
    rw [k1, e1, ← k2, hda]

/-! ### Example -/

section example7
open Ex

/-- Two commitments made from state 0 differ by `(O, 5 - 2)`, `(O, 3 - 3)`. -/
example : ∃ c c' r r', batchCommitG1 (F := K) [(2 : K), 3] crs7 (0 : Nat) = .ok (c, r) ∧ batchCommitG1 (F := K) [(5 : K), 3] crs7 (0 : Nat) = .ok (c', r') ∧
    List.zipWith (fun a b => a - b) c'.coms c.coms = [⟨0, 3⟩, ⟨0, 0⟩] := by
  refine ⟨_, _, _, _, rfl, rfl, ?_⟩
  exact (C89_batch_G1 (crs := crs7) (rng := (0 : Nat)) [(2 : K), 3] [5, 3] rfl rfl rfl).2.2.1.trans (by decide)

example := C89_generated crs7_generated crs7_nonzero

/-- The pairs 2, 5 and 0, 3 cannot be told apart. -/
example := C89_nothing_else_G1 prime7 sim7_simulated sim7_nonzero [2, 3] [5, 3] [0, 6] [3, 6] (by simp) rfl rfl rfl (by decide)

end example7

/-! ### Instances -/

namespace Ex

example := C89_batch_G2 (F := K) (crs := crs7) (rng := (0 : Nat)) [2, 3] [5, 3] rfl rfl rfl
example := C89_batch_scalar_B1 (F := K) (crs := crs7) (rng := (0 : Nat)) [2, 3] [5, 3] rfl rfl rfl
example := C89_batch_scalar_B2 (F := K) (crs := crs7) (rng := (0 : Nat)) [2, 3] [5, 3] rfl rfl rfl
example := C89_nothing_else_G2 prime7 sim7_simulated sim7_nonzero [2, 3] [5, 3] [0, 6] [3, 6] (by simp) rfl rfl rfl (by decide)
example := C89_nothing_else_scalar_B1 prime7 sim7_simulated sim7_nonzero [2, 3] [5, 3] [0, 6] [3, 6] (by simp) rfl rfl rfl (by decide)
example := C89_nothing_else_scalar_B2 prime7 sim7_simulated sim7_nonzero [2, 3] [5, 3] [0, 6] [3, 6] (by simp) rfl rfl rfl (by decide)

end Ex

end GS
