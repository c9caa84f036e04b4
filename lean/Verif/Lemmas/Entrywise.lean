import Verif.Lemmas.Matrix

/-! Entrywise matrix operations and transposition. -/

set_option linter.unusedSectionVars false
set_option linter.unusedVariables false

namespace GS
variable {α β γ : Type}

/-! ### Zip and map -/

theorem zipLoop_iff {A : Matrix α} {B : Matrix β} {op : α → β → γ} {m n : Nat} {M : Matrix γ} :
    collect (fun i => collect (fun j => do
      pure (op (← idx2 A i j) (← idx2 B i j))) (List.range n)) (List.range m) = .ok M ↔
    ∃ (f : Fin m → Fin n → α) (g : Fin m → Fin n → β), Reads A f ∧ Reads B g ∧
      M = matOf fun i j => op (f i j) (g i j) := by
  change seqGrid m n (fun i j => do pure (op (← idx2 A i j) (← idx2 B i j))) = .ok M ↔ _
  rw [seqGrid_iff]
  simp only [bind_ok_iff, pure_eq_ok, Except.ok.injEq]
  constructor
  · rintro ⟨h, rfl, hh⟩
    choose a ha b hb hab using hh
    refine ⟨a, b, ha, hb, ?_⟩
    rw [matOf_inj]; funext i j; exact (hab i j).symm
  · rintro ⟨f, g, hf, hg, rfl⟩
    exact ⟨_, rfl, fun i j => ⟨_, hf i j, _, hg i j, rfl⟩⟩

theorem mapLoop_iff {A : Matrix α} {op : α → β} {m n : Nat} {M : Matrix β} :
    collect (fun i => collect (fun j => do
      pure (op (← idx2 A i j))) (List.range n)) (List.range m) = .ok M ↔
    ∃ f : Fin m → Fin n → α, Reads A f ∧ M = matOf fun i j => op (f i j) := by
  change seqGrid m n (fun i j => do pure (op (← idx2 A i j))) = .ok M ↔ _
  rw [seqGrid_iff]
  simp only [bind_ok_iff, pure_eq_ok, Except.ok.injEq]
  constructor
  · rintro ⟨h, rfl, hh⟩
    choose a ha hab using hh
    refine ⟨a, ha, ?_⟩
    rw [matOf_inj]; funext i j; exact (hab i j).symm
  · rintro ⟨f, hf, rfl⟩
    exact ⟨_, rfl, fun i j => ⟨_, hf i j, rfl⟩⟩

/-- The addition loop, for any addition. -/
def addG [Add α] (self other : Matrix α) : Res (Matrix α) := do
  assertEq self.length other.length
  assertEq (← firstRowLen self) (← firstRowLen other)
  let m := self.length
  let n ← firstRowLen self
  collect (fun i => collect (fun j => do
    pure ((← idx2 self i j) + (← idx2 other i j))) (List.range n)) (List.range m)

theorem ComMat.add_eq {G : Type} [AddCommGroup G] (A B : Matrix (Com G)) : ComMat.add A B = addG A B := rfl
theorem FieldMat.add_eq {F : Type} [Field F] (A B : Matrix F) : FieldMat.add A B = addG A B := rfl

theorem addG_iff [Add α] {A B M : Matrix α} :
    addG A B = .ok M ↔ A.length = B.length ∧ ∃ n, firstRowLen A = .ok n ∧ firstRowLen B = .ok n ∧
      ∃ f g : Fin A.length → Fin n → α, Reads A f ∧ Reads B g ∧ M = matOf fun i j => f i j + g i j := by
  simp only [addG, bind_ok_iff, assertEq_ok_iff, exists_const, zipLoop_iff]
  constructor
  · rintro ⟨h, n, hA, n', hB, rfl, n'', hA', hh⟩
    rw [hA] at hA'; cases hA'
    exact ⟨h, n, hA, hB, hh⟩
  · rintro ⟨h, n, hA, hB, hh⟩
    exact ⟨h, n, hA, n, hB, rfl, n, hA, hh⟩

theorem addG_matOf [Add α] {m n : Nat} (hm : 0 < m) (f g : Fin m → Fin n → α) :
    addG (matOf f) (matOf g) = .ok (matOf fun i j => f i j + g i j) := by
  have : ∀ (k : Nat) (h : k = m) (f' g' : Fin k → Fin n → α), f' = (fun i => f (i.cast h)) →
      g' = (fun i => g (i.cast h)) → (matOf fun i j => f i j + g i j) = matOf fun i j => f' i j + g' i j := by
    rintro k rfl f' g' rfl rfl; rfl
  rw [addG_iff]
  refine ⟨by simp, n, firstRowLen_matOf hm f, firstRowLen_matOf hm g, fun i => f (i.cast (by simp)),
    fun i => g (i.cast (by simp)), fun i j => idx2_matOf f (i.cast (by simp)) j,
    fun i j => idx2_matOf g (i.cast (by simp)) j, this _ (by simp) _ _ rfl rfl⟩

theorem ComMat.add_matOf {G : Type} [AddCommGroup G] {m n : Nat} (hm : 0 < m) (f g : Fin m → Fin n → Com G) :
    ComMat.add (matOf f) (matOf g) = .ok (matOf fun i j => f i j + g i j) := addG_matOf hm f g

theorem FieldMat.add_matOf {F : Type} [Field F] {m n : Nat} (hm : 0 < m) (f g : Fin m → Fin n → F) :
    FieldMat.add (matOf f) (matOf g) = .ok (matOf fun i j => f i j + g i j) := addG_matOf hm f g

theorem addG_isOk [Add α] {A B : Matrix α} :
    (addG A B).Ok ↔ A.length = B.length ∧ ∃ n, firstRowLen A = .ok n ∧ firstRowLen B = .ok n ∧
      (∀ r ∈ A, n ≤ r.length) ∧ ∀ r ∈ B, n ≤ r.length := by
  constructor
  · rintro ⟨M, h⟩
    obtain ⟨h1, n, h2, h3, f, g, hf, hg, -⟩ := addG_iff.mp h
    refine ⟨h1, n, h2, h3, ?_⟩
    rcases Nat.eq_zero_or_pos n with rfl | hn
    · simp
    · exact ⟨(exists_reads_iff rfl hn).mp ⟨f, hf⟩, (exists_reads_iff h1.symm hn).mp ⟨g, hg⟩⟩
  · rintro ⟨h1, n, h2, h3, h4, h5⟩
    rcases Nat.eq_zero_or_pos n with rfl | hn
    · exact ⟨_, addG_iff.mpr ⟨h1, 0, h2, h3, fun _ j => j.elim0, fun _ j => j.elim0, fun _ j => j.elim0,
        fun _ j => j.elim0, rfl⟩⟩
    · obtain ⟨f, hf⟩ := (exists_reads_iff rfl hn).mpr h4
      obtain ⟨g, hg⟩ := (exists_reads_iff h1.symm hn).mpr h5
      exact ⟨_, addG_iff.mpr ⟨h1, n, h2, h3, f, g, hf, hg, rfl⟩⟩

/-- The scalar multiplication loop. -/
def mapG (op : α → α) (self : Matrix α) : Res (Matrix α) := do
  let m := self.length
  let n ← firstRowLen self
  collect (fun i => collect (fun j => do
    pure (op (← idx2 self i j))) (List.range n)) (List.range m)

theorem ComMat.scalarMul_eq {F G : Type} [Field F] [AddCommGroup G] [Module F G] (A : Matrix (Com G)) (r : F) :
    ComMat.scalarMul A r = mapG (fun a => a.scalarMul r) A := rfl
theorem FieldMat.scalarMul_eq {F : Type} [Field F] (A : Matrix F) (r : F) :
    FieldMat.scalarMul A r = mapG (fun a => a * r) A := rfl

theorem mapG_iff {op : α → α} {A M : Matrix α} :
    mapG op A = .ok M ↔ ∃ n, firstRowLen A = .ok n ∧
      ∃ f : Fin A.length → Fin n → α, Reads A f ∧ M = matOf fun i j => op (f i j) := by
  simp only [mapG, bind_ok_iff, mapLoop_iff]

theorem mapG_matOf {op : α → α} {m n : Nat} (hm : 0 < m) (f : Fin m → Fin n → α) :
    mapG op (matOf f) = .ok (matOf fun i j => op (f i j)) := by
  have : ∀ (k : Nat) (h : k = m) (f' : Fin k → Fin n → α), f' = (fun i => f (i.cast h)) →
      (matOf fun i j => op (f i j)) = matOf fun i j => op (f' i j) := by
    rintro k rfl f' rfl; rfl
  rw [mapG_iff]
  exact ⟨n, firstRowLen_matOf hm f, fun i => f (i.cast (by simp)),
    fun i j => idx2_matOf f (i.cast (by simp)) j, this _ (by simp) _ rfl⟩

theorem mapG_isOk {op : α → α} {A : Matrix α} :
    (mapG op A).Ok ↔ ∃ n, firstRowLen A = .ok n ∧ ∀ r ∈ A, n ≤ r.length := by
  constructor
  · rintro ⟨M, h⟩
    obtain ⟨n, h2, f, hf, -⟩ := mapG_iff.mp h
    refine ⟨n, h2, ?_⟩
    rcases Nat.eq_zero_or_pos n with rfl | hn
    · simp
    · exact (exists_reads_iff rfl hn).mp ⟨f, hf⟩
  · rintro ⟨n, h2, h4⟩
    rcases Nat.eq_zero_or_pos n with rfl | hn
    · exact ⟨_, mapG_iff.mpr ⟨0, h2, fun _ j => j.elim0, fun _ j => j.elim0, rfl⟩⟩
    · obtain ⟨f, hf⟩ := (exists_reads_iff rfl hn).mpr h4
      exact ⟨_, mapG_iff.mpr ⟨n, h2, f, hf, rfl⟩⟩

/-- The negation loop. -/
def negG [Neg α] (self : Matrix α) : Res (Matrix α) :=
  collect (fun i => do
    let row ← idx self i
    collect (fun j => do pure (-(← idx row j))) (List.range row.length)) (List.range self.length)

theorem ComMat.neg_eqG {G : Type} [AddCommGroup G] (A : Matrix (Com G)) : ComMat.neg A = negG A := rfl
theorem FieldMat.neg_eqG {F : Type} [Field F] (A : Matrix F) : FieldMat.neg A = negG A := rfl

theorem negG_eq [Neg α] (A : Matrix α) : negG A = .ok (A.map fun r => r.map fun a => -a) := by
  unfold negG
  rw [collect_range_iff]
  refine ⟨fun i => (A.get i).map fun a => -a, ?_, fun i => ?_⟩
  · apply List.ext_getElem <;> simp
  · rw [idx_of_lt i.2, ok_bind, collect_range_iff]
    refine ⟨fun j => -((A.get i).get j), ?_, fun j => ?_⟩
    · apply List.ext_getElem <;> simp
    · have := idx_of_lt (l := A[i.val]) j.2
      simp [this]

theorem map_matOf {f : α → β} {m n : Nat} (g : Fin m → Fin n → α) :
    (matOf g).map (fun r => r.map f) = matOf fun i j => f (g i j) := by
  simp [matOf, List.map_ofFn, Function.comp_def]

theorem negG_matOf [Neg α] {m n : Nat} (f : Fin m → Fin n → α) :
    negG (matOf f) = .ok (matOf fun i j => - f i j) := by
  rw [negG_eq, map_matOf]

/-! ### Transposition -/

/-- The transposition loop. -/
def transposeG (self : Matrix α) : Res (Matrix α) := do
  let n ← firstRowLen self
  let trans := List.replicate n []
  foldRes (fun trans row =>
    foldRes (fun trans i => do pushCol trans i (← idx row i)) trans (List.range row.length))
    trans self

theorem ComMat.transpose_eq {G : Type} [AddCommGroup G] (A : Matrix (Com G)) :
    ComMat.transpose A = transposeG A := rfl
theorem FieldMat.transpose_eq {F : Type} [Field F] (A : Matrix F) : FieldMat.transpose A = transposeG A := rfl

theorem foldRes_append {f : β → α → Res β} {b : β} {l l' : List α} :
    foldRes f b (l ++ l') = (foldRes f b l).bind fun b' => foldRes f b' l' := by
  induction l generalizing b with
  | nil => rfl
  | cons a l ih =>
    simp only [List.cons_append, foldRes_cons]
    cases h : f b a with
    | error e => rfl
    | ok b' => simp only [ok_bind]; exact ih

theorem pushCol_map {n i : Nat} (c : Nat → List α) (hi : i < n) (x : α) :
    pushCol ((List.range n).map c) i x =
      .ok ((List.range n).map fun j => if j = i then c j ++ [x] else c j) := by
  unfold pushCol
  rw [idx_of_lt (by simpa using hi), ok_bind, pure_eq_ok]
  congr 1
  apply List.ext_getElem
  · simp
  · intro k h1 h2
    simp only [List.getElem_map, List.getElem_range, List.getElem_set]
    by_cases h : i = k
    · subst h; simp
    · simp [h, Ne.symm h]

theorem pushRow_take {n : Nat} (c : Nat → List α) (row : List α) (k : Nat) (hk : k ≤ row.length) (hn : k ≤ n) :
    foldRes (fun trans i => do pushCol trans i (← idx row i)) ((List.range n).map c) (List.range k) =
      .ok ((List.range n).map fun j => c j ++ ((row.take k)[j]?).toList) := by
  induction k with
  | zero => simp
  | succ k ih =>
    rw [List.range_succ, foldRes_append, ih (by omega) (by omega)]
    simp only [Except.bind]
    rw [foldRes_cons, idx_of_lt (by omega : k < row.length), ok_bind, pushCol_map _ (by omega)]
    simp only [ok_bind, foldRes_nil]
    congr 1
    apply List.map_congr_left
    intro j _
    by_cases h : j = k
    · subst h
      simp [hk]
    · simp only [h, if_false]
      congr 2
      rw [List.getElem?_take, List.getElem?_take]
      by_cases h' : j < k
      · simp [h', Nat.lt_succ_of_lt h']
      · rw [if_neg h', if_neg (by omega)]

theorem pushRow {n : Nat} (c : Nat → List α) (row : List α) (hn : row.length ≤ n) :
    foldRes (fun trans i => do pushCol trans i (← idx row i)) ((List.range n).map c) (List.range row.length) =
      .ok ((List.range n).map fun j => c j ++ (row[j]?).toList) := by
  rw [pushRow_take c row _ le_rfl hn]; simp

theorem pushRow_long {n : Nat} (c : Nat → List α) (row : List α) (hn : n < row.length) :
    ¬ (foldRes (fun trans i => do pushCol trans i (← idx row i)) ((List.range n).map c)
      (List.range row.length)).Ok := by
  obtain ⟨k, hk⟩ : ∃ k, row.length = n + (k + 1) := ⟨row.length - n - 1, by omega⟩
  rw [hk, List.range_add, foldRes_append, pushRow_take c row n (by omega) le_rfl]
  rintro ⟨t, ht⟩
  change foldRes _ _ _ = _ at ht
  rw [List.range_succ_eq_map, List.map_cons, foldRes_cons, Nat.add_zero, idx_of_lt hn, ok_bind,
    bind_ok_iff] at ht
  obtain ⟨t', h1, -⟩ := ht
  simp only [pushCol, bind_ok_iff, idx_eq_ok] at h1
  obtain ⟨c', h2, -⟩ := h1
  simp at h2

theorem pushRows {n : Nat} (A : Matrix α) (c : Nat → List α) (hA : ∀ r ∈ A, r.length ≤ n) :
    foldRes (fun trans row =>
      foldRes (fun trans i => do pushCol trans i (← idx row i)) trans (List.range row.length))
      ((List.range n).map c) A = .ok ((List.range n).map fun j => c j ++ A.filterMap fun r => r[j]?) := by
  induction A generalizing c with
  | nil => simp
  | cons r A ih =>
    rw [foldRes_cons, pushRow c r (hA r (by simp)), ok_bind, ih _ fun r hr => hA r (by simp [hr])]
    congr 1
    apply List.map_congr_left
    intro j _
    rw [List.append_assoc, List.filterMap_cons]
    cases h : r[j]? <;> simp

theorem pushRows_long {n : Nat} (A : Matrix α) (c : Nat → List α) (hA : ∃ r ∈ A, n < r.length) :
    ¬ (foldRes (fun trans row =>
      foldRes (fun trans i => do pushCol trans i (← idx row i)) trans (List.range row.length))
      ((List.range n).map c) A).Ok := by
  induction A generalizing c with
  | nil => simp at hA
  | cons r A ih =>
    rintro ⟨t, ht⟩
    rw [foldRes_cons, bind_ok_iff] at ht
    obtain ⟨t', h1, h2⟩ := ht
    by_cases hr : r.length ≤ n
    · rw [pushRow c r hr] at h1
      cases h1
      obtain ⟨r', hr', hlt⟩ := hA
      rcases List.mem_cons.mp hr' with rfl | hr'
      · omega
      · exact ih _ ⟨r', hr', hlt⟩ ⟨t, h2⟩
    · exact pushRow_long c r (by omega) ⟨t', h1⟩

theorem replicate_nil_eq (n : Nat) : (List.replicate n ([] : List α)) = (List.range n).map fun _ => [] := by
  apply List.ext_getElem <;> simp

/-- Exact result of transposition. -/
theorem transposeG_iff {A M : Matrix α} :
    transposeG A = .ok M ↔ ∃ n, firstRowLen A = .ok n ∧ (∀ r ∈ A, r.length ≤ n) ∧
      M = (List.range n).map fun j => A.filterMap fun r => r[j]? := by
  simp only [transposeG, bind_ok_iff, replicate_nil_eq]
  refine exists_congr fun n => and_congr_right fun _ => ?_
  by_cases h : ∀ r ∈ A, r.length ≤ n
  · rw [pushRows A _ h]
    simp only [List.nil_append, Except.ok.injEq]
    exact ⟨fun h' => ⟨h, h'.symm⟩, fun h' => h'.2.symm⟩
  · have : ∃ r ∈ A, n < r.length := by simpa using h
    constructor
    · intro h'; exact absurd ⟨_, h'⟩ (pushRows_long A _ this)
    · intro h'; exact absurd h'.1 h

theorem filterMap_ofFn_some {n : Nat} (f : Fin n → α) (g : α → Option β) (h : Fin n → β)
    (hh : ∀ i, g (f i) = some (h i)) : (List.ofFn f).filterMap g = List.ofFn h := by
  induction n with
  | zero => simp
  | succ n ih =>
    rw [List.ofFn_succ, List.filterMap_cons, hh 0, List.ofFn_succ]
    simp [ih (fun i => f i.succ) (fun i => h i.succ) fun i => hh i.succ]

theorem transposeG_matOf {m n : Nat} (hm : 0 < m) (f : Fin m → Fin n → α) :
    transposeG (matOf f) = .ok (matOf fun j i => f i j) := by
  rw [transposeG_iff]
  refine ⟨n, firstRowLen_matOf hm f, ?_, ?_⟩
  · intro r hr
    simp only [matOf, List.mem_ofFn] at hr
    obtain ⟨i, rfl⟩ := hr
    simp
  · apply List.ext_getElem
    · simp
    · intro j h1 h2
      simp only [length_matOf] at h1
      simp only [matOf, List.getElem_ofFn, List.getElem_map, List.getElem_range]
      symm
      apply filterMap_ofFn_some
      intro i
      simp [h1]

theorem ComMat.transpose_matOf {G : Type} [AddCommGroup G] {m n : Nat} (hm : 0 < m) (f : Fin m → Fin n → Com G) :
    ComMat.transpose (matOf f) = .ok (matOf fun j i => f i j) := transposeG_matOf hm f
theorem FieldMat.transpose_matOf {F : Type} [Field F] {m n : Nat} (hm : 0 < m) (f : Fin m → Fin n → F) :
    FieldMat.transpose (matOf f) = .ok (matOf fun j i => f i j) := transposeG_matOf hm f
theorem ComMat.neg_matOf {G : Type} [AddCommGroup G] {m n : Nat} (f : Fin m → Fin n → Com G) :
    ComMat.neg (matOf f) = .ok (matOf fun i j => - f i j) := negG_matOf f
theorem FieldMat.neg_matOf {F : Type} [Field F] {m n : Nat} (f : Fin m → Fin n → F) :
    FieldMat.neg (matOf f) = .ok (matOf fun i j => - f i j) := negG_matOf f

end GS
