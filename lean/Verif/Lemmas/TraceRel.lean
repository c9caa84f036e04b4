import Verif.Lemmas.Trace

/-! # Two executions with the same trace -/

set_option linter.unusedSectionVars false

namespace GS

/-- Both calls return, with related values, or both panic in the same way. -/
def RelRes {α β : Type} (R : α → β → Prop) : Res α → Res β → Prop
  | .ok a, .ok b => R a b
  | .error p, .error q => p = q
  | _, _ => False

/-- The same operations and related results. -/
def RelTr {α β : Type} (R : α → β → Prop) (a : Tr α) (b : Tr β) : Prop := a.ops = b.ops ∧ RelRes R a.res b.res

/-- Vectors of the same length. -/
abbrev Sh1 {α β : Type} : List α → List β → Prop := List.Forall₂ fun _ _ => True

/-- Matrices of the same shape. -/
abbrev Sh2 {α β : Type} : Matrix α → Matrix β → Prop := List.Forall₂ Sh1

section
variable {α β γ δ α' β' : Type} {R : α → β → Prop} {S : γ → δ → Prop}

theorem sh1_iff {l : List α} {l' : List β} : Sh1 l l' ↔ l.length = l'.length := by
  constructor
  · exact fun h => h.length_eq
  · intro h
    rw [Sh1, List.forall₂_iff_get]
    exact ⟨h, fun _ _ _ => trivial⟩

theorem sh2_iff {M : Matrix α} {N : Matrix β} : Sh2 M N ↔ M.map List.length = N.map List.length := by
  induction M generalizing N with
  | nil => cases N <;> simp [Sh2]
  | cons r M ih =>
    cases N with
    | nil => simp [Sh2]
    | cons s N => simp only [Sh2, List.forall₂_cons, sh1_iff, List.map_cons, List.cons.injEq, ← ih]

theorem relRes_bind {a : Res α} {b : Res β} {f : α → Res γ} {g : β → Res δ} (h : RelRes R a b)
    (hf : ∀ x y, R x y → RelRes S (f x) (g y)) : RelRes S (a >>= f) (b >>= g) := by
  cases a <;> cases b
  · exact h
  · exact h.elim
  · exact h.elim
  · exact hf _ _ h

theorem relTr_bind {a : Tr α} {b : Tr β} {f : α → Tr γ} {g : β → Tr δ} (h : RelTr R a b)
    (hf : ∀ x y, R x y → RelTr S (f x) (g y)) : RelTr S (a >>= f) (b >>= g) := by
  obtain ⟨l, r⟩ := a
  obtain ⟨l', r'⟩ := b
  obtain ⟨h1, h2⟩ := h
  dsimp only at h1 h2
  subst h1
  cases r <;> cases r'
  · exact ⟨rfl, h2⟩
  · exact h2.elim
  · exact h2.elim
  · obtain ⟨h3, h4⟩ := hf _ _ h2
    exact ⟨congrArg (l ++ ·) h3, h4⟩

theorem relTr_pure {a : α} {b : β} (h : R a b) : RelTr R (pure a) (pure b) := ⟨rfl, h⟩

theorem relTr_op {o : Op} {a : α} {b : β} (h : R a b) : RelTr R (Tr.op o a) (Tr.op o b) := ⟨rfl, h⟩

theorem relTr_lift {a : Res α} {b : Res β} (h : RelRes R a b) : RelTr R (liftM a) (liftM b) := ⟨rfl, h⟩

theorem relTr_mono {R' : α → β → Prop} {a : Tr α} {b : Tr β} (h : RelTr R a b) (hR : ∀ x y, R x y → R' x y) : RelTr R' a b := by
  obtain ⟨h1, h2⟩ := h
  refine ⟨h1, ?_⟩
  cases ha : a.res <;> cases hb : b.res <;> simp_all [RelRes]

theorem rel_idx {l : List α} {l' : List β} (h : List.Forall₂ R l l') (i : Nat) : RelRes R (idx l i) (idx l' i) := by
  induction h generalizing i with
  | nil => exact rfl
  | cons h _ ih => cases i with
    | zero => exact h
    | succ i => exact ih i

theorem rel_idx2 {M : Matrix α} {N : Matrix β} (h : List.Forall₂ (List.Forall₂ R) M N) (i j : Nat) :
    RelRes R (idx2 M i j) (idx2 N i j) := relRes_bind (rel_idx h i) fun _ _ h => rel_idx h j

theorem rel_assert {a b a' b' : Nat} (h : a = a') (h' : b = b') : RelRes Eq (assertEq a b) (assertEq a' b') := by
  subst h h'
  unfold assertEq
  split <;> exact rfl

theorem rel_firstRowLen {M : Matrix α} {N : Matrix β} (h : Sh2 M N) : RelRes Eq (firstRowLen M) (firstRowLen N) :=
  relRes_bind (rel_idx h 0) fun _ _ h => sh1_iff.1 h

theorem rel_collect {l : List γ} {l' : List δ} {f : γ → Res α} {g : δ → Res β} (h : List.Forall₂ S l l')
    (hf : ∀ x y, S x y → RelRes R (f x) (g y)) : RelRes (List.Forall₂ R) (collect f l) (collect g l') := by
  induction h with
  | nil => exact List.Forall₂.nil
  | cons h _ ih =>
    exact relRes_bind (hf _ _ h) fun _ _ h1 => relRes_bind ih fun _ _ h2 => List.Forall₂.cons h1 h2

theorem forall₂_refl (l : List α) : List.Forall₂ Eq l l := by
  induction l with
  | nil => exact .nil
  | cons a l ih => exact .cons rfl ih

theorem relTr_collect {l : List γ} {l' : List δ} {f : γ → Tr α} {g : δ → Tr β} (h : List.Forall₂ S l l')
    (hf : ∀ x y, S x y → RelTr R (f x) (g y)) : RelTr (List.Forall₂ R) (Tr.collect f l) (Tr.collect g l') := by
  induction h with
  | nil => exact relTr_pure List.Forall₂.nil
  | cons h _ ih =>
    exact relTr_bind (hf _ _ h) fun _ _ h1 => relTr_bind ih fun _ _ h2 => relTr_pure (List.Forall₂.cons h1 h2)

theorem relTr_fold {l : List γ} {l' : List δ} {f : α → γ → Tr α} {g : β → δ → Tr β} {a : α} {b : β} (h : List.Forall₂ S l l')
    (h0 : R a b) (hf : ∀ a b x y, R a b → S x y → RelTr R (f a x) (g b y)) : RelTr R (Tr.fold f a l) (Tr.fold g b l') := by
  induction h generalizing a b with
  | nil => exact relTr_pure h0
  | cons h _ ih => exact relTr_bind (hf _ _ _ _ h0 h) fun _ _ h1 => ih h1

theorem relTr_seqGrid (m n : Nat) {f : Nat → Nat → Tr α} {g : Nat → Nat → Tr β} (h : ∀ i j, RelTr R (f i j) (g i j)) :
    RelTr (List.Forall₂ (List.Forall₂ R)) (Tr.seqGrid m n f) (Tr.seqGrid m n g) :=
  relTr_collect (forall₂_refl _) fun i _ hi => hi ▸ relTr_collect (forall₂_refl _) fun j _ hj => hj ▸ h i j

theorem relTr_parGrid (sch : Scheduler) (m n : Nat) {f : Nat → Nat → Tr α} {g : Nat → Nat → Tr β}
    (h : ∀ i j, RelTr R (f i j) (g i j)) :
    RelTr (List.Forall₂ (List.Forall₂ R)) (Tr.parGrid sch m n f) (Tr.parGrid sch m n g) := by
  refine relTr_bind (R := fun s t => ∀ p, Option.Rel R (s p) (t p)) ?_ fun s t hst => relTr_lift ?_
  · refine relTr_fold (forall₂_refl _) (fun _ => .none) fun s t p q hst hpq => ?_
    subst hpq
    refine relTr_bind (h _ _) fun a b hab => relTr_pure fun r => ?_
    unfold Slots.write
    split
    · exact .some hab
    · exact hst r
  · refine rel_collect (forall₂_refl _) fun i _ hi => hi ▸ rel_collect (forall₂_refl _) fun j _ hj => hj ▸ ?_
    have := hst (i, j)
    unfold Slots.read
    revert this
    cases s (i, j) <;> cases t (i, j) <;> intro h <;> cases h
    · exact rfl
    · assumption

theorem rel_isEmpty {M : Matrix α} {N : Matrix β} (h : Sh2 M N) : isEmptyMat M = isEmptyMat N := by
  cases h with
  | nil => rfl
  | cons h _ => cases h <;> rfl

theorem sh2_col {l : List α} {l' : List β} (h : Sh1 l l') : Sh2 (vecToColVec l) (vecToColVec l') := by
  unfold vecToColVec
  induction h with
  | nil => exact .nil
  | cons _ _ ih => exact .cons (.cons trivial .nil) ih

theorem sh1_map {l : List α} {l' : List β} {f : α → γ} {g : β → δ} (h : Sh1 l l') : Sh1 (l.map f) (l'.map g) := by
  rw [sh1_iff] at h ⊢
  simpa using h

theorem sh1_refl (l : List α) : Sh1 l l := sh1_iff.2 rfl

theorem rel_colVecToVec {M : Matrix α} {N : Matrix β} (h : Sh2 M N) : RelRes Sh1 (colVecToVec M) (colVecToVec N) := by
  unfold colVecToVec
  rw [h.length_eq]
  split
  · exact rel_idx h 0
  · exact rel_collect h fun _ _ h => rel_idx h 0

theorem rel_foldRes {l : List γ} {l' : List δ} {f : α → γ → Res α} {g : β → δ → Res β} {a : α} {b : β} (h : List.Forall₂ S l l')
    (h0 : R a b) (hf : ∀ a b x y, R a b → S x y → RelRes R (f a x) (g b y)) : RelRes R (foldRes f a l) (foldRes g b l') := by
  induction h generalizing a b with
  | nil => exact h0
  | cons h _ ih => exact relRes_bind (hf _ _ _ _ h0 h) fun _ _ h1 => ih h1

theorem sh1_append {l k : List α} {l' k' : List β} (h : Sh1 l l') (h' : Sh1 k k') : Sh1 (l ++ k) (l' ++ k') := by
  rw [sh1_iff] at *
  simp [h, h']

theorem sh2_set {M : Matrix α} {N : Matrix β} {l : List α} {l' : List β} (h : Sh2 M N) (h' : Sh1 l l') (i : Nat) :
    Sh2 (M.set i l) (N.set i l') := by
  induction h generalizing i with
  | nil => exact .nil
  | cons h hs ih => cases i with
    | zero => exact .cons h' hs
    | succ i => exact .cons h (ih i)

theorem rel_transpose {F F' : Type} [Field F] [Field F'] {M : Matrix F} {N : Matrix F'} (h : Sh2 M N) :
    RelRes Sh2 (FieldMat.transpose M) (FieldMat.transpose N) := by
  refine relRes_bind (rel_firstRowLen h) fun n _ hn => ?_
  subst hn
  refine rel_foldRes h ?_ fun A B r s hAB hrs => ?_
  · induction n with
    | zero => exact .nil
    | succ n ih => exact .cons .nil ih
  · rw [sh1_iff.1 hrs]
    refine rel_foldRes (forall₂_refl _) hAB fun A B i _ hAB hi => ?_
    subst hi
    exact relRes_bind (rel_idx hrs i) fun _ _ _ => relRes_bind (rel_idx hAB i) fun _ _ h =>
      sh2_set hAB (sh1_append h (.cons trivial .nil)) i
end

section
variable {F G F' G' : Type} [Field F] [AddCommGroup G] [Module F G] [Field F'] [AddCommGroup G'] [Module F' G']

theorem relTr_comAdd (g : Grp) (a b : Com G) (a' b' : Com G') : RelTr (fun _ _ => True) (Com.addTr g a b) (Com.addTr g a' b') :=
  ⟨rfl, trivial⟩

theorem relTr_comMul (g : Grp) (a : Com G) (x : F) (a' : Com G') (x' : F') :
    RelTr (fun _ _ => True) (Com.scalarMulTr g a x) (Com.scalarMulTr g a' x') := ⟨rfl, trivial⟩

theorem relTr_matAdd (g : Grp) {M N : Matrix (Com G)} {M' N' : Matrix (Com G')} (hM : Sh2 M M') (hN : Sh2 N N') :
    RelTr Sh2 (ComMat.addTr g M N) (ComMat.addTr g M' N') := by
  refine relTr_bind (relTr_lift (rel_assert hM.length_eq hN.length_eq)) fun _ _ _ => ?_
  refine relTr_bind (relTr_lift (rel_firstRowLen hM)) fun _ _ h1 => ?_
  refine relTr_bind (relTr_lift (rel_firstRowLen hN)) fun _ _ h2 => ?_
  refine relTr_bind (relTr_lift (rel_assert h1 h2)) fun _ _ _ => ?_
  refine relTr_bind (relTr_lift (rel_firstRowLen hM)) fun n _ h3 => ?_
  subst h3
  rw [hM.length_eq]
  exact relTr_collect (forall₂_refl _) fun i _ hi => hi ▸ relTr_collect (forall₂_refl _) fun j _ hj => hj ▸
    relTr_bind (relTr_lift (rel_idx2 hM i j)) fun _ _ _ => relTr_bind (relTr_lift (rel_idx2 hN i j)) fun _ _ _ =>
      relTr_comAdd g _ _ _ _

theorem relTr_leftMul (g : Grp) (sch : Scheduler) {M : Matrix (Com G)} {L : Matrix F} {M' : Matrix (Com G')} {L' : Matrix F'}
    (b : Bool) (hM : Sh2 M M') (hL : Sh2 L L') : RelTr Sh2 (ComMat.leftMulTr g sch M L b) (ComMat.leftMulTr g sch M' L' b) := by
  have entry : ∀ i j, RelTr (fun _ _ => True) (do
      let row ← idx L i
      Tr.fold (fun a k => do Com.addTr g a (← Com.scalarMulTr g (← idx2 M k j) (← idx row k))) 0 (List.range M.length)) (do
      let row ← idx L' i
      Tr.fold (fun a k => do Com.addTr g a (← Com.scalarMulTr g (← idx2 M' k j) (← idx row k))) 0 (List.range M'.length)) := by
    intro i j
    rw [hM.length_eq]
    exact relTr_bind (relTr_lift (rel_idx hL i)) fun _ _ hr => relTr_fold (forall₂_refl _) trivial fun _ _ k _ _ hk => hk ▸
      relTr_bind (relTr_lift (rel_idx2 hM k j)) fun _ _ _ => relTr_bind (relTr_lift (rel_idx hr k)) fun _ _ _ =>
        relTr_bind (relTr_comMul g _ _ _ _) fun _ _ _ => relTr_comAdd g _ _ _ _
  unfold ComMat.leftMulTr
  rw [rel_isEmpty hM, rel_isEmpty hL]
  cases isEmptyMat L'
  · cases isEmptyMat M'
    · refine relTr_bind (relTr_lift (rel_firstRowLen hL)) fun _ _ h1 => ?_
      refine relTr_bind (relTr_lift (rel_assert h1 hM.length_eq)) fun _ _ _ => ?_
      refine relTr_bind (relTr_lift (rel_firstRowLen hM)) fun n _ h3 => ?_
      subst h3
      dsimp only
      rw [hL.length_eq]
      cases b
      · exact relTr_seqGrid _ _ entry
      · exact relTr_parGrid _ _ _ entry
    · exact relTr_pure .nil
  · exact relTr_pure .nil

theorem relTr_fAdd {M N : Matrix F} {M' N' : Matrix F'} (hM : Sh2 M M') (hN : Sh2 N N') :
    RelTr Sh2 (FieldMat.addTr M N) (FieldMat.addTr M' N') := by
  refine relTr_bind (relTr_lift (rel_assert hM.length_eq hN.length_eq)) fun _ _ _ => ?_
  refine relTr_bind (relTr_lift (rel_firstRowLen hM)) fun _ _ h1 => ?_
  refine relTr_bind (relTr_lift (rel_firstRowLen hN)) fun _ _ h2 => ?_
  refine relTr_bind (relTr_lift (rel_assert h1 h2)) fun _ _ _ => ?_
  refine relTr_bind (relTr_lift (rel_firstRowLen hM)) fun n _ h3 => ?_
  subst h3
  rw [hM.length_eq]
  exact relTr_collect (forall₂_refl _) fun i _ hi => hi ▸ relTr_collect (forall₂_refl _) fun j _ hj => hj ▸
    relTr_bind (relTr_lift (rel_idx2 hM i j)) fun _ _ _ => relTr_bind (relTr_lift (rel_idx2 hN i j)) fun _ _ _ =>
      relTr_op trivial

theorem relTr_fNeg {M : Matrix F} {M' : Matrix F'} (hM : Sh2 M M') : RelTr Sh2 (FieldMat.negTr M) (FieldMat.negTr M') := by
  unfold FieldMat.negTr
  rw [hM.length_eq]
  refine relTr_collect (forall₂_refl _) fun i _ hi => hi ▸ relTr_bind (relTr_lift (rel_idx hM i)) fun r s h => ?_
  rw [sh1_iff.1 h]
  exact relTr_collect (forall₂_refl _) fun j _ hj => hj ▸ relTr_bind (relTr_lift (rel_idx h j)) fun _ _ _ => relTr_op trivial

theorem relTr_rightMul (sch : Scheduler) {M R : Matrix F} {M' R' : Matrix F'}
    (b : Bool) (hM : Sh2 M M') (hR : Sh2 R R') : RelTr Sh2 (FieldMat.rightMulTr sch M R b) (FieldMat.rightMulTr sch M' R' b) := by
  have entry : ∀ i j, RelTr (fun _ _ => True) (do
      let row ← idx M i
      Tr.fold (fun a k => do
        let t ← Tr.op (.mul .F) ((← idx row k) * (← idx2 R k j))
        Tr.op (.add .F) (a + t)) 0 (List.range R.length)) (do
      let row ← idx M' i
      Tr.fold (fun a k => do
        let t ← Tr.op (.mul .F) ((← idx row k) * (← idx2 R' k j))
        Tr.op (.add .F) (a + t)) 0 (List.range R'.length)) := by
    intro i j
    rw [hR.length_eq]
    exact relTr_bind (relTr_lift (rel_idx hM i)) fun _ _ hr => relTr_fold (forall₂_refl _) trivial fun _ _ k _ _ hk => hk ▸
      relTr_bind (relTr_lift (rel_idx hr k)) fun _ _ _ => relTr_bind (relTr_lift (rel_idx2 hR k j)) fun _ _ _ =>
        relTr_bind (relTr_op (R := fun _ _ => True) trivial) fun _ _ _ => relTr_op trivial
  unfold FieldMat.rightMulTr
  rw [rel_isEmpty hM, rel_isEmpty hR]
  cases isEmptyMat M'
  · cases isEmptyMat R'
    · refine relTr_bind (relTr_lift (rel_firstRowLen hM)) fun _ _ h1 => ?_
      refine relTr_bind (relTr_lift (rel_assert h1 hR.length_eq)) fun _ _ _ => ?_
      refine relTr_bind (relTr_lift (rel_firstRowLen hR)) fun n _ h3 => ?_
      subst h3
      dsimp only
      rw [hM.length_eq]
      cases b
      · exact relTr_seqGrid _ _ entry
      · exact relTr_parGrid _ _ _ entry
    · exact relTr_pure .nil
  · exact relTr_pure .nil

end
end GS
