import Verif.Model.Eq
import Verif.Props.Example
import Verif.Spec.Hiding

/-!
# C72: `==`

`==` on commitments, proofs and equations is equality of all fields, the private randomness included, so it is an equivalence;
it distinguishes proofs that no verifier distinguishes.
-/

set_option linter.unusedSectionVars false

namespace GS
variable {F G1 G2 GT G : Type}

theorem vecEq_iff {α : Type} {eq : α → α → Bool} (h : ∀ a b, eq a b = true ↔ a = b) (a b : List α) :
    vecEq eq a b = true ↔ a = b := by
  induction a generalizing b with
  | nil => cases b <;> simp [vecEq]
  | cons x a ih =>
    cases b with
    | nil => simp [vecEq]
    | cons y b =>
      have := ih b
      simp only [vecEq, Bool.and_eq_true, beq_iff_eq] at this
      simp only [vecEq, List.length_cons, List.zipWith_cons_cons, List.all_cons, id_eq, Bool.and_eq_true, beq_iff_eq,
        Nat.add_right_cancel_iff, List.cons.injEq, h, ← this]
      tauto

variable [DecidableEq F] [DecidableEq G] [DecidableEq G1] [DecidableEq G2] [DecidableEq GT]

/-- C72: vectors of group or field elements. -/
theorem C72_vec (a b : List F) : vecEq (· == ·) a b = true ↔ a = b := vecEq_iff (fun _ _ => beq_iff_eq) a b

/-- C72: vectors of commitment elements. -/
theorem C72_coms (a b : List (Com G)) : vecEq Com.eq a b = true ↔ a = b :=
  vecEq_iff (fun a b => by simp [Com.eq, Com.ext_iff]) a b

/-- C72: matrices. -/
theorem C72_matrix (a b : Matrix F) : matEq a b = true ↔ a = b := vecEq_iff (fun a b => C72_vec a b) a b

/-- C72: commitments; the recorded randomness is compared. -/
theorem C72_commit (a b : Commit F G) :
    (Commit.eq a b = true ↔ a.coms = b.coms ∧ a.rand = b.rand) ∧ (Commit.eq a b = true ↔ a = b) := by
  have : Commit.eq a b = true ↔ a.coms = b.coms ∧ a.rand = b.rand := by
    simp only [Commit.eq, Bool.and_eq_true, C72_coms, C72_matrix]
  refine ⟨this, this.trans ?_⟩
  cases a; cases b; simp

/-- C72: equation types. -/
theorem C72_equ_type (a b : EquType) : EquType.eq a b = true ↔ a = b := by cases a <;> cases b <;> simp [EquType.eq]

/-- C72: proofs; the recorded randomness is compared. -/
theorem C72_equ_proof (a b : EquProof F G1 G2) :
    (EquProof.eq a b = true ↔ a.pi = b.pi ∧ a.theta = b.theta ∧ a.equ_type = b.equ_type ∧ a.rand = b.rand) ∧
    (EquProof.eq a b = true ↔ a = b) := by
  have : EquProof.eq a b = true ↔ a.pi = b.pi ∧ a.theta = b.theta ∧ a.equ_type = b.equ_type ∧ a.rand = b.rand := by
    simp only [EquProof.eq, Bool.and_eq_true, C72_coms, C72_matrix, C72_equ_type, and_assoc]
  refine ⟨this, this.trans ?_⟩
  cases a; cases b; simp

/-- C72: collections of commitments and proofs. -/
theorem C72_cproof (a b : CProof F G1 G2) :
    (CProof.eq a b = true ↔ a.xcoms = b.xcoms ∧ a.ycoms = b.ycoms ∧ a.equ_proofs = b.equ_proofs) ∧
    (CProof.eq a b = true ↔ a = b) := by
  have : CProof.eq a b = true ↔ a.xcoms = b.xcoms ∧ a.ycoms = b.ycoms ∧ a.equ_proofs = b.equ_proofs := by
    simp only [CProof.eq, Bool.and_eq_true, (C72_commit _ _).2, vecEq_iff (fun a b => (C72_equ_proof a b).2), and_assoc]
  refine ⟨this, this.trans ?_⟩
  cases a; cases b; simp

/-- C72: equations. -/
theorem C72_ppe (a b : PPE F G1 G2 GT) : PPE.eq a b = true ↔ a = b := by
  cases a; cases b
  simp [PPE.eq, C72_vec, C72_matrix, and_assoc]
theorem C72_msmeg1 (a b : MSMEG1 F G1) : MSMEG1.eq a b = true ↔ a = b := by
  cases a; cases b
  simp [MSMEG1.eq, C72_vec, C72_matrix, and_assoc]
theorem C72_msmeg2 (a b : MSMEG2 F G2) : MSMEG2.eq a b = true ↔ a = b := by
  cases a; cases b
  simp [MSMEG2.eq, C72_vec, C72_matrix, and_assoc]
theorem C72_quad (a b : QuadEqu F) : QuadEqu.eq a b = true ↔ a = b := by
  cases a; cases b
  simp [QuadEqu.eq, C72_vec, C72_matrix, and_assoc]

omit [DecidableEq F] [DecidableEq G] [DecidableEq G1] [DecidableEq G2] [DecidableEq GT] in
theorem publicPart_eq_iff (a b : CProof F G1 G2) :
    a.publicPart = b.publicPart ↔ a.xcoms.coms = b.xcoms.coms ∧ a.ycoms.coms = b.ycoms.coms ∧
      a.equ_proofs.map (fun p => (p.pi, p.theta, p.equ_type)) = b.equ_proofs.map (fun p => (p.pi, p.theta, p.equ_type)) := by
  simp [CProof.publicPart]

/-- C72: two proofs a verifier cannot tell apart are `==` exactly if the private randomness agrees as well. -/
theorem C72_private (a b : CProof F G1 G2) (h : a.publicPart = b.publicPart) :
    CProof.eq a b = true ↔ a.xcoms.rand = b.xcoms.rand ∧ a.ycoms.rand = b.ycoms.rand ∧
      a.equ_proofs.map (·.rand) = b.equ_proofs.map (·.rand) := by
  rw [(C72_cproof a b).2]
  constructor
  · rintro rfl; exact ⟨rfl, rfl, rfl⟩
  · rintro ⟨h1, h2, h3⟩
    obtain ⟨h4, h5, h6⟩ := (publicPart_eq_iff a b).mp h
    obtain ⟨⟨ax, ar⟩, ⟨ay, as⟩, ap⟩ := a
    obtain ⟨⟨bx, br⟩, ⟨by', bs⟩, bp⟩ := b
    simp only at h1 h2 h3 h4 h5 h6
    subst h1 h2 h4 h5
    congr 1
    clear h
    induction ap generalizing bp with
    | nil => exact (List.map_eq_nil_iff.mp h6.symm).symm
    | cons p ap ih =>
      cases bp with
      | nil => simp at h6
      | cons q bp =>
        simp only [List.map_cons, List.cons.injEq, Prod.mk.injEq] at h3 h6
        obtain ⟨⟨h7, h8, h9⟩, h10⟩ := h6
        rw [ih bp h3.2 h10]
        congr 1
        cases p; cases q
        simp only at h3 h7 h8 h9
        rw [h7, h8, h9, h3.1]

/-- Both cases of `C72_private` occur. -/
example : ∃ a b : CProof Ex.K Ex.K Ex.K, a.publicPart = b.publicPart ∧ CProof.eq a b = false :=
  ⟨⟨⟨[⟨1, 2⟩], [[3, 4]]⟩, ⟨[], []⟩, []⟩, ⟨⟨[⟨1, 2⟩], [[3, 5]]⟩, ⟨[], []⟩, []⟩, rfl, by decide⟩
example : CProof.eq (⟨⟨[⟨1, 2⟩], [[3, 4]]⟩, ⟨[], []⟩, []⟩ : CProof Ex.K Ex.K Ex.K) ⟨⟨[⟨1, 2⟩], [[3, 4]]⟩, ⟨[], []⟩, []⟩ = true := by
  decide

/-! ### Instances -/

namespace Ex

example := C72_private (⟨⟨[⟨1, 2⟩], [[3, 4]]⟩, ⟨[], []⟩, []⟩ : CProof K K K) ⟨⟨[⟨1, 2⟩], [[3, 5]]⟩, ⟨[], []⟩, []⟩ rfl

end Ex

end GS
