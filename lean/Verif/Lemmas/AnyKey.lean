import Verif.Spec.AnyCrs
import Verif.Lemmas.Sound
import Verif.Lemmas.SimKey

/-! Arbitrary keys: binding or equivocal, what extraction needs, and equivalence of witnesses on equivocal keys. -/

set_option linter.unusedSectionVars false
set_option linter.unusedVariables false

namespace GS
variable {F G G1 G2 GT : Type} [Field F] [AddCommGroup G] [Module F G] [AddCommGroup G1] [Module F G1]
  [AddCommGroup G2] [Module F G2] [AddCommGroup GT] [Module F GT]

theorem two_of_length {α : Type} {l : List α} (h : l.length = 2) : ∃ a b, l = [a, b] := by
  rcases l with _ | ⟨a, _ | ⟨b, _ | ⟨c, l⟩⟩⟩ <;> simp at h
  exact ⟨a, b, rfl⟩

theorem two_le_length {α : Type} {l : List α} (h : 2 ≤ l.length) : ∃ a b l', l = a :: b :: l' := by
  rcases l with _ | ⟨a, _ | ⟨b, l⟩⟩ <;> simp at h
  exact ⟨a, b, l, rfl⟩

theorem canOpenGroup_cons {u0 u1 : Com G} {u' : List (Com G)} {c : Com G} {x : G} :
    CanOpenGroup F (u0 :: u1 :: u') c x ↔ ∃ r : F × F, c = groupCom u0 u1 x r := by
  constructor
  · rintro ⟨_, _, _, h, r, hr⟩; cases h; exact ⟨r, hr⟩
  · rintro ⟨r, hr⟩; exact ⟨_, _, _, rfl, r, hr⟩

theorem canOpenScalar_cons {u0 u1 : Com G} {u' : List (Com G)} {g : G} {c : Com G} {x : F} :
    CanOpenScalar (u0 :: u1 :: u') g c x ↔ ∃ r : F, c = scalarCom u0 u1 g x r := by
  constructor
  · rintro ⟨_, _, _, h, r, hr⟩; cases h; exact ⟨r, hr⟩
  · rintro ⟨r, hr⟩; exact ⟨_, _, _, rfl, r, hr⟩

/-! ### Binding or equivocal -/

theorem not_bindingGroup {u0 u1 : Com G} {u' : List (Com G)} (h : ¬ BindingGroup F (u0 :: u1 :: u')) :
    ∃ (Z : G) (r : F × F), Z ≠ 0 ∧ (⟨0, Z⟩ : Com G) = r.1 • u0 + r.2 • u1 := by
  simp only [BindingGroup, not_forall, canOpenGroup_cons] at h
  obtain ⟨c, x, x', ⟨r, rfl⟩, ⟨r', h⟩, hne⟩ := h
  refine ⟨x - x', r' - r, sub_ne_zero.mpr hne, ?_⟩
  have : (⟨0, x - x'⟩ : Com G) = ⟨0, x⟩ - ⟨0, x'⟩ := by ext <;> simp
  rw [this]
  simp only [groupCom] at h
  simp only [Prod.fst_sub, Prod.snd_sub, sub_smul]
  rw [← sub_eq_zero] at h ⊢
  rw [← h]; abel

theorem not_bindingScalar {u0 u1 : Com G} {u' : List (Com G)} {g : G} (h : ¬ BindingScalar F (u0 :: u1 :: u') g) :
    ∃ s : F, u1 + ⟨0, g⟩ = s • u0 := by
  simp only [BindingScalar, not_forall, canOpenScalar_cons] at h
  obtain ⟨c, x, x', ⟨r, rfl⟩, ⟨r', h⟩, hne⟩ := h
  have h0 : x - x' ≠ 0 := sub_ne_zero.mpr hne
  have h1 : (x - x') • (u1 + (⟨0, g⟩ : Com G)) = (r' - r) • u0 := by
    simp only [scalarCom] at h
    rw [sub_smul, sub_smul, ← sub_eq_zero] 
    rw [← sub_eq_zero] at h
    rw [← h]; abel
  refine ⟨(x - x')⁻¹ * (r' - r), ?_⟩
  rw [mul_smul, ← h1, smul_smul, inv_mul_cancel₀ h0, one_smul]

theorem equivocalGroup_of {u0 u1 : Com G} {u' : List (Com G)} (h : ∀ Z : G, ∃ r : F × F, (⟨0, Z⟩ : Com G) = r.1 • u0 + r.2 • u1) :
    EquivocalGroup F (u0 :: u1 :: u') := by
  intro c x x'
  rw [canOpenGroup_cons, canOpenGroup_cons]
  rintro ⟨r, rfl⟩
  obtain ⟨s, hs⟩ := h (x - x')
  refine ⟨r + s, ?_⟩
  have : (⟨0, x⟩ : Com G) = ⟨0, x'⟩ + ⟨0, x - x'⟩ := by ext <;> simp
  simp only [groupCom, this, hs, Prod.fst_add, Prod.snd_add, add_smul]
  abel

theorem EquivocalGroup.span {u0 u1 : Com G} {u' : List (Com G)} (h : EquivocalGroup F (u0 :: u1 :: u')) (Z : G) :
    ∃ r : F × F, (⟨0, Z⟩ : Com G) = r.1 • u0 + r.2 • u1 := by
  have := h ⟨0, Z⟩ Z 0 (canOpenGroup_cons.mpr ⟨(0, 0), by simp [groupCom]⟩)
  obtain ⟨r, hr⟩ := canOpenGroup_cons.mp this
  refine ⟨r, ?_⟩
  rw [hr]
  have : (⟨0, 0⟩ : Com G) = 0 := rfl
  rw [groupCom, this, zero_add]

theorem equivocalScalar_of {u0 u1 : Com G} {u' : List (Com G)} {g : G} {s : F} (h : u1 + ⟨0, g⟩ = s • u0) :
    EquivocalScalar F (u0 :: u1 :: u') g := by
  intro c x x'
  rw [canOpenScalar_cons, canOpenScalar_cons]
  rintro ⟨r, rfl⟩
  refine ⟨x * s + r - x' * s, ?_⟩
  simp only [scalarCom, h]
  module

theorem EquivocalScalar.lift {u0 u1 : Com G} {u' : List (Com G)} {g : G} (h : EquivocalScalar F (u0 :: u1 :: u') g) :
    ∃ s : F, u1 + ⟨0, g⟩ = s • u0 := by
  have := h (u1 + ⟨0, g⟩) 1 0 (canOpenScalar_cons.mpr ⟨0, by simp [scalarCom]⟩)
  obtain ⟨r, hr⟩ := canOpenScalar_cons.mp this
  exact ⟨r, by rw [hr]; simp [scalarCom]⟩

theorem group_dichotomy (hc : ∀ g : G, g ≠ 0 → ∀ x : G, ∃ k : F, x = k • g) {u : List (Com G)} (hu : 2 ≤ u.length) :
    BindingGroup F u ∨ EquivocalGroup F u := by
  obtain ⟨u0, u1, u', rfl⟩ := two_le_length hu
  by_cases h : BindingGroup F (u0 :: u1 :: u')
  · exact .inl h
  · obtain ⟨Z, r, hZ, hr⟩ := not_bindingGroup h
    refine .inr (equivocalGroup_of fun x => ?_)
    obtain ⟨k, rfl⟩ := hc Z hZ x
    refine ⟨(k * r.1, k * r.2), ?_⟩
    have : (⟨0, k • Z⟩ : Com G) = k • ⟨0, Z⟩ := by ext <;> simp
    rw [this, hr]; module

theorem scalar_dichotomy {u : List (Com G)} (g : G) (hu : 2 ≤ u.length) :
    BindingScalar F u g ∨ EquivocalScalar F u g := by
  obtain ⟨u0, u1, u', rfl⟩ := two_le_length hu
  by_cases h : BindingScalar F (u0 :: u1 :: u') g
  · exact .inl h
  · obtain ⟨s, hs⟩ := not_bindingScalar h
    exact .inr (equivocalScalar_of hs)

/-! ### Functionals -/

/-- `c ↦ α c0 + β c1`. -/
def lf (α β : F) : Com G →ₗ[F] G := α • Com.fst + β • Com.snd

theorem lf_apply (α β : F) (c : Com G) : lf α β c = α • c.c0 + β • c.c1 := rfl

/-- The tensor of two functionals. -/
def lfT (α1 β1 α2 β2 : F) : ComT GT →ₗ[F] GT where
  toFun t := (α1 * α2) • t.t0 + (α1 * β2) • t.t1 + (β1 * α2) • t.t2 + (β1 * β2) • t.t3
  map_add' x y := by simp only [ComT.add_t0, ComT.add_t1, ComT.add_t2, ComT.add_t3]; module
  map_smul' r x := by
    simp only [ComT.smul_t0, ComT.smul_t1, ComT.smul_t2, ComT.smul_t3, RingHom.id_apply]; module

theorem lfT_pairing (e : G1 →ₗ[F] G2 →ₗ[F] GT) (α1 β1 α2 β2 : F) (c : Com G1) (d : Com G2) :
    lfT α1 β1 α2 β2 (ComT.pairing e c d) = e (lf α1 β1 c) (lf α2 β2 d) := by
  simp only [lfT, LinearMap.coe_mk, AddHom.coe_mk, ComT.pairing, lf_apply, map_add, map_smul,
    LinearMap.add_apply, LinearMap.smul_apply]
  module

theorem BindingGroup.functional (hc : ∀ g : G, g ≠ 0 → ∀ x : G, ∃ k : F, x = k • g) {u0 u1 : Com G} {u' : List (Com G)}
    (h : BindingGroup F (u0 :: u1 :: u')) : ∃ α : F, lf α 1 u0 = 0 ∧ lf α 1 u1 = 0 := by
  have key : ∀ (r : F × F) (Z : G), (⟨0, Z⟩ : Com G) = r.1 • u0 + r.2 • u1 → Z = 0 := by
    intro r Z hr
    refine h ⟨0, Z⟩ Z 0 (canOpenGroup_cons.mpr ⟨(0, 0), by simp [groupCom]⟩) (canOpenGroup_cons.mpr ⟨r, ?_⟩)
    rw [hr]
    have : (⟨0, 0⟩ : Com G) = 0 := rfl
    rw [groupCom, this, zero_add]
  have sub : ∀ (w0 w1 : Com G), (∀ (r : F × F) (Z : G), (⟨0, Z⟩ : Com G) = r.1 • w0 + r.2 • w1 → Z = 0) → w0.c0 ≠ 0 →
      ∃ α : F, lf α 1 w0 = 0 ∧ lf α 1 w1 = 0 := by
    intro w0 w1 key h0
    obtain ⟨β, hβ⟩ := hc _ h0 w0.c1
    obtain ⟨δ, hδ⟩ := hc _ h0 w1.c0
    have := key (-δ, 1) (w1.c1 - δ • w0.c1) (by ext <;> simp [hδ]; abel)
    refine ⟨-β, ?_, ?_⟩
    · rw [lf_apply, hβ]; module
    · rw [sub_eq_zero] at this
      rw [lf_apply, this, hβ, hδ]; module
  by_cases h0 : u0.c0 = 0
  · by_cases h1 : u1.c0 = 0
    · have z0 := key (1, 0) u0.c1 (by ext <;> simp [h0])
      have z1 := key (0, 1) u1.c1 (by ext <;> simp [h1])
      exact ⟨0, by simp [lf_apply, z0], by simp [lf_apply, z1]⟩
    · obtain ⟨α, h1, h2⟩ := sub u1 u0 (fun r Z hr => key (r.2, r.1) Z (by rw [hr, add_comm])) h1
      exact ⟨α, h2, h1⟩
  · exact sub u0 u1 key h0

theorem BindingScalar.functional (hc : ∀ g : G, g ≠ 0 → ∀ x : G, ∃ k : F, x = k • g) {u0 u1 : Com G} {u' : List (Com G)}
    {g : G} (h : BindingScalar F (u0 :: u1 :: u') g) :
    ∃ α β : F, lf α β u0 = 0 ∧ lf α β (u1 + ⟨0, g⟩) ≠ 0 := by
  have key : ∀ s : F, u1 + ⟨0, g⟩ ≠ s • u0 := by
    intro s hs
    refine one_ne_zero (h (u1 + ⟨0, g⟩) (1 : F) 0 (canOpenScalar_cons.mpr ⟨0, by simp [scalarCom]⟩)
      (canOpenScalar_cons.mpr ⟨s, ?_⟩))
    rw [hs]; simp [scalarCom]
  generalize u1 + ⟨0, g⟩ = w at key
  by_cases hu : u0 = 0
  · subst hu
    have hw : w ≠ 0 := by simpa using key 0
    by_cases h0 : w.c0 = 0
    · refine ⟨0, 1, by simp, fun h1 => hw ?_⟩
      rw [lf_apply] at h1
      ext
      · exact h0
      · simpa using h1
    · refine ⟨1, 0, by simp, fun h1 => h0 ?_⟩
      rw [lf_apply] at h1
      simpa using h1
  · obtain ⟨p, hp⟩ : ∃ p : G, p ≠ 0 := by
      by_contra hn
      push Not at hn
      exact hu (Com.ext (hn _) (hn _))
    obtain ⟨a, ha⟩ := hc p hp u0.c0
    obtain ⟨b, hb⟩ := hc p hp u0.c1
    obtain ⟨c, hcc⟩ := hc p hp w.c0
    obtain ⟨d, hd⟩ := hc p hp w.c1
    refine ⟨b, -a, ?_, fun hz => ?_⟩
    · rw [lf_apply, ha, hb]; module
    · have hz' : (b * c - a * d) • p = 0 := by rw [← hz, lf_apply, hcc, hd]; module
      have hz2 : b * c = a * d := sub_eq_zero.mp ((smul_eq_zero.mp hz').resolve_right hp)
      by_cases ha0 : a = 0
      · have hb0 : b ≠ 0 := by
          rintro rfl
          exact hu (Com.ext (by simp [ha, ha0]) (by simp [hb]))
        refine key (b⁻¹ * d) (Com.ext ?_ ?_)
        · have : c = 0 := by
            rw [ha0, zero_mul] at hz2
            exact (mul_eq_zero.mp hz2).resolve_left hb0
          simp [hcc, ha, ha0, this]
        · rw [Com.smul_c1, hd, hb, smul_smul]
          congr 1
          field_simp
      · refine key (a⁻¹ * c) (Com.ext ?_ ?_)
        · rw [Com.smul_c0, hcc, ha, smul_smul]
          congr 1
          field_simp
        · rw [Com.smul_c1, hd, hb, smul_smul]
          congr 1
          field_simp
          linear_combination -hz2

end GS
