import Verif.Model.Matrix
import Verif.Lemmas.Com

/-! Matrix operations: exact success conditions and closed forms. -/

set_option linter.unusedSectionVars false
set_option linter.unusedVariables false

namespace GS
variable {α β γ : Type}

/-- The top-left `m × n` block of `M` can be read and is `f`. -/
def Reads {m n : Nat} (M : Matrix α) (f : Fin m → Fin n → α) : Prop :=
  ∀ (i : Fin m) (j : Fin n), idx2 M i j = .ok (f i j)

theorem reads_matOf {m n : Nat} (f : Fin m → Fin n → α) : Reads (matOf f) f := fun i j => idx2_matOf f i j

theorem Reads.unique {m n : Nat} {M : Matrix α} {f g : Fin m → Fin n → α} (hf : Reads M f) (hg : Reads M g) :
    f = g := by
  funext i j
  have := hf i j
  rw [hg i j] at this
  exact (Except.ok.inj this).symm

theorem exists_reads_iff {m n : Nat} {M : Matrix α} (hm : M.length = m) (hn : 0 < n) :
    (∃ f : Fin m → Fin n → α, Reads M f) ↔ ∀ r ∈ M, n ≤ r.length := by
  subst hm
  constructor
  · rintro ⟨f, hf⟩ r hr
    obtain ⟨i, rfl⟩ := List.get_of_mem hr
    have := hf i ⟨n - 1, by omega⟩
    rw [idx2_eq_ok] at this
    obtain ⟨row, h1, h2⟩ := this
    have h2 := (List.getElem?_eq_some_iff.mp h2).1
    have : row = M.get i := by simpa [List.getElem?_eq_some_iff] using h1.symm
    subst this
    simp only at h2
    omega
  · intro h
    refine ⟨fun i j => (M.get i)[j.val]'(lt_of_lt_of_le j.2 (h _ (List.get_mem ..))), fun i j => ?_⟩
    rw [idx2_eq_ok]
    exact ⟨M.get i, by simp, by simp⟩

theorem firstRowLen_iff {M : Matrix α} {n : Nat} : firstRowLen M = .ok n ↔ ∃ r, M[0]? = some r ∧ r.length = n := by
  simp [firstRowLen, bind_ok_iff, idx_eq_ok]

theorem firstRowLen_isOk {M : Matrix α} : (firstRowLen M).Ok ↔ M ≠ [] := by
  cases M <;> simp [firstRowLen]

@[simp] theorem firstRowLen_cons (r : List α) (M : Matrix α) : firstRowLen (r :: M) = .ok r.length := rfl

theorem isEmptyMat_eq_false_iff {M : Matrix α} :
    isEmptyMat M = false ↔ ∃ n, 0 < n ∧ firstRowLen M = .ok n := by
  cases M with
  | nil => simp [isEmptyMat, firstRowLen]
  | cons r M =>
    cases r <;> simp [isEmptyMat]

/-! ### Column vectors -/

theorem vecToColVec_ofFn {n : Nat} (x : Fin n → α) : vecToColVec (List.ofFn x) = matOf fun i (_ : Fin 1) => x i := by
  simp [vecToColVec, matOf, List.map_ofFn, Function.comp_def]

theorem colVecToVec_matOf {m : Nat} (f : Fin m → Fin 1 → α) :
    colVecToVec (matOf f) = .ok (List.ofFn fun i => f i 0) := by
  unfold colVecToVec
  split
  · next h =>
    simp only [length_matOf] at h
    subst h
    have := idx_matOf f 0
    simp only [Fin.val_zero] at this
    rw [this]; simp
  · exact collect_ofFn fun i => by simp

@[simp] theorem length_vecToColVec (l : List α) : (vecToColVec l).length = l.length := by simp [vecToColVec]

theorem colVecToVec_vecToColVec (l : List α) : colVecToVec (vecToColVec l) = .ok l := by
  obtain ⟨x, hx⟩ := exists_ofFn l rfl
  rw [hx, vecToColVec_ofFn, colVecToVec_matOf]

/-! ### The product loop -/

/-- One entry of a product: sum over `k` of `term a[i][k] b[k][j]`. -/
def SumsTo [Add γ] [Zero γ] (L : Matrix α) (R : Matrix β) (term : α → β → γ) (dim i j : Nat) (v : γ) : Prop :=
  ∃ (a : Fin dim → α) (b : Fin dim → β),
    (∀ k : Fin dim, idx2 L i k = .ok (a k) ∧ idx2 R k j = .ok (b k)) ∧
      v = rustSum (List.ofFn fun k => term (a k) (b k))

theorem seqGrid_product [AddCommMonoid γ] {L : Matrix α} {R : Matrix β} {term : α → β → γ} {m dim n : Nat}
    {entry : Nat → Nat → Res γ} {M : Matrix γ} (hm : 0 < m) (hn : 0 < n)
    (hentry : ∀ i j v, i < m → (entry i j = .ok v ↔ SumsTo L R term dim i j v)) :
    seqGrid m n entry = .ok M ↔ ∃ (f : Fin m → Fin dim → α) (g : Fin dim → Fin n → β),
      Reads L f ∧ Reads R g ∧ M = matOf fun i j => ∑ k, term (f i k) (g k j) := by
  rw [seqGrid_iff]
  constructor
  · rintro ⟨h, rfl, hh⟩
    have : ∀ (i : Fin m) (j : Fin n), SumsTo L R term dim i j (h i j) := fun i j =>
      (hentry i j _ i.2).mp (hh i j)
    choose a b hab hv using this
    refine ⟨fun i k => a i ⟨0, hn⟩ k, fun k j => b ⟨0, hm⟩ j k, fun i k => (hab i ⟨0, hn⟩ k).1,
      fun k j => (hab ⟨0, hm⟩ j k).2, ?_⟩
    rw [matOf_inj]
    funext i j
    rw [hv i j, rustSum_ofFn]
    refine Finset.sum_congr rfl fun k _ => ?_
    have h1 := (hab i j k).1
    rw [(hab i ⟨0, hn⟩ k).1] at h1
    have h2 := (hab i j k).2
    rw [(hab ⟨0, hm⟩ j k).2] at h2
    rw [← Except.ok.inj h1, ← Except.ok.inj h2]
  · rintro ⟨f, g, hf, hg, rfl⟩
    refine ⟨_, rfl, fun i j => (hentry i j _ i.2).mpr ⟨f i, fun k => g k j, fun k => ⟨hf i k, hg k j⟩, ?_⟩⟩
    rw [rustSum_ofFn]

theorem entry_row_first [Add γ] [Zero γ] {L : Matrix α} {R : Matrix β} {act : α → β → γ} {dim i j : Nat} {v : γ}
    (hi : i < L.length) :
    (do
      let row ← idx L i
      let terms ← collect (fun k => do pure (act (← idx row k) (← idx2 R k j))) (List.range dim)
      pure (rustSum terms) : Res γ) = .ok v ↔ SumsTo L R act dim i j v := by
  simp only [bind_ok_iff, idx_of_lt hi, Except.ok.injEq, exists_eq_left', collect_range_iff, pure_eq_ok]
  constructor
  · rintro ⟨t, ⟨g, rfl, h⟩, rfl⟩
    choose a ha b hb hg using h
    refine ⟨a, b, fun k => ⟨?_, hb k⟩, ?_⟩
    · simp only [idx2, idx_of_lt hi, ok_bind, ha k]
    · congr 2; funext k; exact (hg k).symm
  · rintro ⟨a, b, hab, rfl⟩
    refine ⟨_, ⟨_, rfl, fun k => ⟨a k, ?_, b k, (hab k).2, rfl⟩⟩, rfl⟩
    simpa only [idx2, idx_of_lt hi, ok_bind] using (hab k).1

theorem entry_col_first [Add γ] [Zero γ] {L : Matrix α} {R : Matrix β} {act : β → α → γ} {dim i j : Nat} {v : γ}
    (hi : i < L.length) :
    (do
      let row ← idx L i
      let terms ← collect (fun k => do pure (act (← idx2 R k j) (← idx row k))) (List.range dim)
      pure (rustSum terms) : Res γ) = .ok v ↔ SumsTo L R (fun a b => act b a) dim i j v := by
  simp only [bind_ok_iff, idx_of_lt hi, Except.ok.injEq, exists_eq_left', collect_range_iff, pure_eq_ok]
  constructor
  · rintro ⟨t, ⟨g, rfl, h⟩, rfl⟩
    choose b hb a ha hg using h
    refine ⟨a, b, fun k => ⟨?_, hb k⟩, ?_⟩
    · simp only [idx2, idx_of_lt hi, ok_bind, ha k]
    · congr 2; funext k; exact (hg k).symm
  · rintro ⟨a, b, hab, rfl⟩
    refine ⟨_, ⟨_, rfl, fun k => ⟨b k, (hab k).2, a k, ?_, rfl⟩⟩, rfl⟩
    simpa only [idx2, idx_of_lt hi, ok_bind] using (hab k).1

/-- Full description of a product of `L` (rows) with `R` (columns). -/
def IsProduct [AddCommMonoid γ] (L : Matrix α) (R : Matrix β) (term : α → β → γ) (M : Matrix γ) : Prop :=
  ((isEmptyMat L = true ∨ isEmptyMat R = true) ∧ M = []) ∨
  (∃ (dim n : Nat) (f : Fin L.length → Fin dim → α) (g : Fin dim → Fin n → β),
    0 < dim ∧ 0 < n ∧ R.length = dim ∧ firstRowLen L = .ok dim ∧ firstRowLen R = .ok n ∧
    Reads L f ∧ Reads R g ∧ M = matOf fun i j => ∑ k, term (f i k) (g k j))

theorem product_core [AddCommMonoid γ] (sch : Scheduler) {L : Matrix α} {R : Matrix β} {term : α → β → γ}
    {entry : Nat → Nat → Res γ} {b : Bool} {M : Matrix γ}
    (hL : isEmptyMat L = false) (hR : isEmptyMat R = false)
    (hentry : ∀ i j v, i < L.length → (entry i j = .ok v ↔ SumsTo L R term R.length i j v)) :
    (do
      assertEq (← firstRowLen L) R.length
      let rowDim := L.length
      let colDim ← firstRowLen R
      if b then parGrid sch rowDim colDim entry else seqGrid rowDim colDim entry : Res (Matrix γ)) = .ok M ↔
    IsProduct L R term M := by
  obtain ⟨k, hk, hLk⟩ := isEmptyMat_eq_false_iff.mp hL
  obtain ⟨n, hn, hRn⟩ := isEmptyMat_eq_false_iff.mp hR
  have hm : 0 < L.length := by
    rcases L with _ | ⟨r, L⟩
    · simp [isEmptyMat] at hL
    · simp
  have hgrid : (if b then parGrid sch L.length n entry else seqGrid L.length n entry) = .ok M ↔
      seqGrid L.length n entry = .ok M := by
    cases b
    · simp
    · simp only [if_true]; exact parGrid_ok_iff_seqGrid sch
  simp only [hLk, hRn, ok_bind, bind_ok_iff, assertEq_ok_iff, exists_const, hgrid]
  rw [seqGrid_product hm hn hentry]
  constructor
  · rintro ⟨rfl, f, g, hf, hg, rfl⟩
    exact .inr ⟨_, n, f, g, hk, hn, rfl, hLk, hRn, hf, hg, rfl⟩
  · rintro (⟨h, -⟩ | ⟨dim, n', f, g, h1, h2, h3, h4, h5, hf, hg, rfl⟩)
    · simp [hL, hR] at h
    · rw [hLk] at h4; rw [hRn] at h5
      cases h4; cases h5; subst h3
      exact ⟨rfl, f, g, hf, hg, rfl⟩

theorem isProduct_of_empty [AddCommMonoid γ] {L : Matrix α} {R : Matrix β} {term : α → β → γ} {M : Matrix γ}
    (h : isEmptyMat L = true ∨ isEmptyMat R = true) : IsProduct L R term M ↔ [] = M := by
  constructor
  · rintro (⟨-, rfl⟩ | ⟨dim, n, f, g, h1, h2, -, h4, h5, -⟩)
    · rfl
    · have hL := isEmptyMat_eq_false_iff.mpr ⟨_, h1, h4⟩
      have hR := isEmptyMat_eq_false_iff.mpr ⟨_, h2, h5⟩
      simp [hL, hR] at h
  · rintro rfl; exact .inl ⟨h, rfl⟩

section
variable {F G : Type} [Field F] [AddCommGroup G] [Module F G]

theorem ComMat.leftMul_iff {sch : Scheduler} {self : Matrix (Com G)} {lhs : Matrix F} {b : Bool} {M : Matrix (Com G)} :
    ComMat.leftMul sch self lhs b = .ok M ↔ IsProduct lhs self (fun (r : F) a => r • a) M := by
  unfold ComMat.leftMul
  by_cases hL : isEmptyMat lhs = true
  · rw [isProduct_of_empty (.inl hL)]; simp [hL]
  by_cases hR : isEmptyMat self = true
  · rw [isProduct_of_empty (.inr hR)]; simp [hL, hR]
  simp only [Bool.not_eq_true] at hL hR
  simp only [hL, hR, Bool.false_eq_true, if_false]
  exact product_core sch hL hR fun i j v hi => entry_col_first (act := fun a r => Com.scalarMul a r) hi

theorem ComMat.rightMul_iff {sch : Scheduler} {self : Matrix (Com G)} {rhs : Matrix F} {b : Bool} {M : Matrix (Com G)} :
    ComMat.rightMul sch self rhs b = .ok M ↔ IsProduct self rhs (fun a (r : F) => r • a) M := by
  unfold ComMat.rightMul
  by_cases hL : isEmptyMat self = true
  · rw [isProduct_of_empty (.inl hL)]; simp [hL]
  by_cases hR : isEmptyMat rhs = true
  · rw [isProduct_of_empty (.inr hR)]; simp [hL, hR]
  simp only [Bool.not_eq_true] at hL hR
  simp only [hL, hR, Bool.false_eq_true, if_false]
  exact product_core sch hL hR fun i j v hi => entry_row_first (act := fun a r => Com.scalarMul a r) hi

theorem FieldMat.leftMul_iff {sch : Scheduler} {self lhs : Matrix F} {b : Bool} {M : Matrix F} :
    FieldMat.leftMul sch self lhs b = .ok M ↔ IsProduct lhs self (fun r a => a * r) M := by
  unfold FieldMat.leftMul
  by_cases hL : isEmptyMat lhs = true
  · rw [isProduct_of_empty (.inl hL)]; simp [hL]
  by_cases hR : isEmptyMat self = true
  · rw [isProduct_of_empty (.inr hR)]; simp [hL, hR]
  simp only [Bool.not_eq_true] at hL hR
  simp only [hL, hR, Bool.false_eq_true, if_false]
  exact product_core sch hL hR fun i j v hi => entry_col_first (act := fun a r => a * r) hi

theorem FieldMat.rightMul_iff {sch : Scheduler} {self rhs : Matrix F} {b : Bool} {M : Matrix F} :
    FieldMat.rightMul sch self rhs b = .ok M ↔ IsProduct self rhs (fun a r => a * r) M := by
  unfold FieldMat.rightMul
  by_cases hL : isEmptyMat self = true
  · rw [isProduct_of_empty (.inl hL)]; simp [hL]
  by_cases hR : isEmptyMat rhs = true
  · rw [isProduct_of_empty (.inr hR)]; simp [hL, hR]
  simp only [Bool.not_eq_true] at hL hR
  simp only [hL, hR, Bool.false_eq_true, if_false]
  exact product_core sch hL hR fun i j v hi => entry_row_first (act := fun a r => a * r) hi

end

theorem isProduct_matOf [AddCommMonoid γ] {m k n : Nat} (hm : 0 < m) (hk : 0 < k) (hn : 0 < n)
    (f : Fin m → Fin k → α) (g : Fin k → Fin n → β) (term : α → β → γ) :
    IsProduct (matOf f) (matOf g) term (matOf fun i j => ∑ l, term (f i l) (g l j)) := by
  refine .inr ⟨k, n, fun i => f (i.cast (by simp)), g, hk, hn, by simp, firstRowLen_matOf hm f, firstRowLen_matOf hk g,
    fun i j => idx2_matOf f (i.cast (by simp)) j, reads_matOf g, ?_⟩
  simp only [matOf]
  apply List.ext_getElem
  · simp
  · intros; simp only [List.getElem_ofFn]; rfl

section
variable {F G : Type} [Field F] [AddCommGroup G] [Module F G]

theorem ComMat.leftMul_matOf {m k n : Nat} (hm : 0 < m) (hk : 0 < k) (hn : 0 < n) (sch : Scheduler)
    (f : Fin m → Fin k → F) (g : Fin k → Fin n → Com G) (b : Bool) :
    ComMat.leftMul sch (matOf g) (matOf f) b = .ok (matOf fun i j => ∑ l, f i l • g l j) :=
  ComMat.leftMul_iff.mpr (isProduct_matOf hm hk hn f g _)

theorem ComMat.rightMul_matOf {m k n : Nat} (hm : 0 < m) (hk : 0 < k) (hn : 0 < n) (sch : Scheduler)
    (f : Fin m → Fin k → Com G) (g : Fin k → Fin n → F) (b : Bool) :
    ComMat.rightMul sch (matOf f) (matOf g) b = .ok (matOf fun i j => ∑ l, g l j • f i l) :=
  ComMat.rightMul_iff.mpr (isProduct_matOf hm hk hn f g _)

theorem FieldMat.leftMul_matOf {m k n : Nat} (hm : 0 < m) (hk : 0 < k) (hn : 0 < n) (sch : Scheduler)
    (f : Fin m → Fin k → F) (g : Fin k → Fin n → F) (b : Bool) :
    FieldMat.leftMul sch (matOf g) (matOf f) b = .ok (matOf fun i j => ∑ l, f i l * g l j) := by
  rw [FieldMat.leftMul_iff]
  simpa only [mul_comm] using isProduct_matOf hm hk hn f g (fun r a => a * r)

theorem FieldMat.rightMul_matOf {m k n : Nat} (hm : 0 < m) (hk : 0 < k) (hn : 0 < n) (sch : Scheduler)
    (f : Fin m → Fin k → F) (g : Fin k → Fin n → F) (b : Bool) :
    FieldMat.rightMul sch (matOf f) (matOf g) b = .ok (matOf fun i j => ∑ l, f i l * g l j) :=
  FieldMat.rightMul_iff.mpr (isProduct_matOf hm hk hn f g _)

end

end GS
