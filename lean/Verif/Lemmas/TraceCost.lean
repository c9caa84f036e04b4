import Verif.Lemmas.Prove
import Verif.Lemmas.Trace
import Verif.Spec.Trace

/-! # Prices of executions -/

set_option linter.unusedSectionVars false

namespace GS

section
variable {α β γ : Type} (w : Op → Nat)

/-- The call returns a value with `P`, for the price `c`. -/
def Costs (t : Tr α) (c : Nat) (P : α → Prop) : Prop := ∃ x, t.res = .ok x ∧ P x ∧ price w t = c

/-- The call costs at most `c`; if it returns, the value has `P`. -/
def Bounded (t : Tr α) (c : Nat) (P : α → Prop) : Prop := price w t ≤ c ∧ ∀ x, t.res = .ok x → P x

variable {w} {a : Tr α} {f : α → Tr β} {P : α → Prop} {Q : β → Prop} {c d : Nat}

theorem price_bind_ok {x : α} (h : a.res = .ok x) : price w (a >>= f) = price w a + price w (f x) := by
  obtain ⟨l, r⟩ := a
  dsimp only at h
  subst h
  show ((l ++ (f x).ops).map w).sum = _
  simp [price]

theorem price_bind_error {p : Panic} (h : a.res = .error p) : price w (a >>= f) = price w a := by
  obtain ⟨l, r⟩ := a
  dsimp only at h
  subst h
  rfl

theorem Costs.eq (h : Costs w a c P) (hc : c = d) : Costs w a d P := hc ▸ h

theorem costs_bind (h : Costs w a c P) (hf : ∀ x, P x → Costs w (f x) d Q) : Costs w (a >>= f) (c + d) Q := by
  obtain ⟨x, hx, hP, hc⟩ := h
  obtain ⟨y, hy, hQ, hd⟩ := hf x hP
  refine ⟨y, ?_, hQ, by rw [price_bind_ok hx, hc, hd]⟩
  rw [Tr.bind_res, hx]
  exact hy

theorem costs_pure {x : α} (h : P x) : Costs w (pure x) 0 P := ⟨x, rfl, h, rfl⟩

theorem costs_op {o : Op} {x : α} (h : P x) : Costs w (Tr.op o x) (w o) P := ⟨x, rfl, h, by simp [price, Tr.op]⟩

theorem costs_lift {r : Res α} (h : ∃ x, r = .ok x ∧ P x) : Costs w (liftM r) 0 P := by
  obtain ⟨x, hx, hP⟩ := h
  exact ⟨x, hx, hP, rfl⟩

theorem bounded_bind (h : Bounded w a c P) (hf : ∀ x, P x → Bounded w (f x) d Q) : Bounded w (a >>= f) (c + d) Q := by
  cases hr : a.res with
  | ok x =>
    obtain ⟨h1, h2⟩ := h
    obtain ⟨h3, h4⟩ := hf x (h2 x hr)
    refine ⟨by rw [price_bind_ok hr]; omega, fun y hy => h4 y ?_⟩
    rw [Tr.bind_res, hr] at hy
    exact hy
  | error p =>
    refine ⟨by rw [price_bind_error hr]; have := h.1; omega, fun y hy => ?_⟩
    rw [Tr.bind_res, hr] at hy
    cases hy

theorem Bounded.le (h : Bounded w a c P) (hc : c ≤ d) : Bounded w a d P := ⟨h.1.trans hc, h.2⟩

theorem Bounded.imp {P' : α → Prop} (h : Bounded w a c P) (hP : ∀ x, P x → P' x) : Bounded w a c P' :=
  ⟨h.1, fun x hx => hP x (h.2 x hx)⟩

theorem bounded_pure {x : α} (h : P x) : Bounded w (pure x) 0 P := ⟨Nat.le_refl _, fun y hy => by cases hy; exact h⟩

theorem bounded_op {o : Op} {x : α} (h : P x) : Bounded w (Tr.op o x) (w o) P :=
  ⟨by simp [price, Tr.op], fun y hy => by cases hy; exact h⟩

theorem bounded_lift {r : Res α} (h : ∀ x, r = .ok x → P x) : Bounded w (liftM r) 0 P := ⟨Nat.le_refl _, h⟩

theorem Costs.bounded (h : Costs w a c P) : Bounded w a c P := by
  obtain ⟨x, hx, hP, hc⟩ := h
  exact ⟨hc.le, fun y hy => by rw [hx] at hy; cases hy; exact hP⟩

theorem costs_collect {f : α → Tr β} {l : List α} (h : ∀ x ∈ l, Costs w (f x) c Q) :
    Costs w (Tr.collect f l) (l.length * c) fun r => r.length = l.length ∧ ∀ y ∈ r, Q y := by
  induction l with
  | nil => exact (costs_pure ⟨rfl, by simp⟩).eq (by simp)
  | cons a l ih =>
    refine (costs_bind (h a (by simp)) fun x hx => costs_bind (ih fun y hy => h y (by simp [hy])) fun r hr => costs_pure ?_).eq
      (by rw [List.length_cons]; ring)
    refine ⟨by simp [hr.1], fun y hy => ?_⟩
    rcases List.mem_cons.1 hy with rfl | hy
    · exact hx
    · exact hr.2 y hy

theorem bounded_collect {f : α → Tr β} {l : List α} (h : ∀ x ∈ l, Bounded w (f x) c Q) :
    Bounded w (Tr.collect f l) (l.length * c) fun r => r.length = l.length ∧ ∀ y ∈ r, Q y := by
  induction l with
  | nil => exact (bounded_pure ⟨rfl, by simp⟩).le (by simp)
  | cons a l ih =>
    refine (bounded_bind (h a (by simp)) fun x hx => bounded_bind (ih fun y hy => h y (by simp [hy])) fun r hr => bounded_pure ?_).le
      (by rw [List.length_cons]; exact le_of_eq (by ring))
    refine ⟨by simp [hr.1], fun y hy => ?_⟩
    rcases List.mem_cons.1 hy with rfl | hy
    · exact hx
    · exact hr.2 y hy

theorem costs_fold {f : β → α → Tr β} {l : List α} (b : β) (h : ∀ b, ∀ x ∈ l, Costs w (f b x) c fun _ => True) :
    Costs w (Tr.fold f b l) (l.length * c) fun _ => True := by
  induction l generalizing b with
  | nil => exact (costs_pure trivial).eq (by simp)
  | cons a l ih =>
    exact (costs_bind (h b a (by simp)) fun x _ => ih x fun b y hy => h b y (by simp [hy])).eq (by rw [List.length_cons]; ring)

theorem bounded_fold {f : β → α → Tr β} {l : List α} (b : β) (h : ∀ b, ∀ x ∈ l, Bounded w (f b x) c fun _ => True) :
    Bounded w (Tr.fold f b l) (l.length * c) fun _ => True := by
  induction l generalizing b with
  | nil => exact (bounded_pure trivial).le (by simp)
  | cons a l ih =>
    exact (bounded_bind (h b a (by simp)) fun x _ => ih x fun b y hy => h b y (by simp [hy])).le
      (by rw [List.length_cons]; exact le_of_eq (by ring))

theorem order_length (sch : Scheduler) (m n : Nat) : (sch.order m n).length = m * n := by
  rw [(sch.complete m n).length_eq]
  simp [grid]

theorem mem_order {sch : Scheduler} {m n : Nat} {p : Nat × Nat} : p ∈ sch.order m n ↔ p.1 < m ∧ p.2 < n := by
  rw [(sch.complete m n).mem_iff, mem_grid]

theorem rect_matOf' {m n : Nat} (f : Fin m → Fin n → β) : Rect m n (matOf f) := by
  constructor
  · simp [matOf]
  · intro r hr
    simp only [matOf, List.mem_ofFn] at hr
    obtain ⟨i, rfl⟩ := hr
    simp

theorem costs_parGrid (sch : Scheduler) {m n : Nat} {f : Nat → Nat → Tr β} (h : ∀ i < m, ∀ j < n, Costs w (f i j) c fun _ => True) :
    Costs w (Tr.parGrid sch m n f) (m * n * c) (Rect m n) := by
  have h1 : Costs w (Tr.runTasks f (sch.order m n) fun _ => none) (m * n * c) fun _ => True := by
    rw [← order_length sch m n]
    refine costs_fold _ fun s p hp => ?_
    obtain ⟨hi, hj⟩ := mem_order.1 hp
    exact (costs_bind (h _ hi _ hj) fun b _ => costs_pure trivial).eq (Nat.add_zero _)
  have h2 : ∃ M, (Tr.parGrid sch m n f).res = .ok M ∧ Rect m n M := by
    choose g hg using fun (i : Fin m) (j : Fin n) => h i i.2 j j.2
    refine ⟨matOf g, ?_, rect_matOf' g⟩
    rw [Tr.parGrid_res, parGrid_iff]
    exact ⟨g, rfl, fun i j => (hg i j).1⟩
  obtain ⟨M, hM, hR⟩ := h2
  refine ⟨M, hM, hR, ?_⟩
  obtain ⟨s, hs, _, hp⟩ := h1
  unfold Tr.parGrid
  rw [price_bind_ok hs, hp]
  rfl

theorem costs_seqGrid {m n : Nat} {f : Nat → Nat → Tr β} (h : ∀ i < m, ∀ j < n, Costs w (f i j) c fun _ => True) :
    Costs w (Tr.seqGrid m n f) (m * n * c) (Rect m n) := by
  have := costs_collect (w := w) (l := List.range m) (f := fun i => Tr.collect (fun j => f i j) (List.range n)) (c := n * c)
    (Q := fun r => r.length = n) fun i hi => by
      obtain ⟨x, h1, h2, h3⟩ := costs_collect (w := w) (l := List.range n) (f := fun j => f i j) (c := c) (Q := fun _ => True)
        fun j hj => h i (List.mem_range.1 hi) j (List.mem_range.1 hj)
      exact ⟨x, h1, by simpa using h2.1, by simpa using h3⟩
  obtain ⟨x, h1, h2, h3⟩ := this
  exact ⟨x, h1, by simpa [Rect] using h2, by rw [Nat.mul_assoc]; simpa [Tr.seqGrid] using h3⟩

theorem bounded_parGrid (sch : Scheduler) {m n : Nat} {f : Nat → Nat → Tr β} (h : ∀ i < m, ∀ j < n, Bounded w (f i j) c fun _ => True) :
    Bounded w (Tr.parGrid sch m n f) (m * n * c) fun _ => True := by
  refine (bounded_bind (P := fun _ => True) (c := m * n * c) (d := 0) ?_ fun _ _ => bounded_lift fun _ _ => trivial).le (Nat.le_refl _)
  rw [← order_length sch m n]
  refine bounded_fold _ fun s p hp => ?_
  obtain ⟨hi, hj⟩ := mem_order.1 hp
  exact (bounded_bind (h _ hi _ hj) fun b _ => bounded_pure trivial).le (Nat.le_refl _)

/-! ## Reading a rectangular matrix -/

theorem idx_lt_mem {l : List α} {i : Nat} (h : i < l.length) : ∃ x, idx l i = .ok x ∧ x ∈ l :=
  ⟨l[i], idx_eq_ok.2 (List.getElem?_eq_getElem h), List.getElem_mem h⟩

theorem rect_idx {m n : Nat} {M : Matrix α} (h : Rect m n M) {i : Nat} (hi : i < m) : ∃ r, idx M i = .ok r ∧ r.length = n := by
  obtain ⟨r, h1, h2⟩ := idx_lt_mem (l := M) (i := i) (by rw [h.1]; exact hi)
  exact ⟨r, h1, h.2 r h2⟩

theorem rect_idx2 {m n : Nat} {M : Matrix α} (h : Rect m n M) {i j : Nat} (hi : i < m) (hj : j < n) :
    ∃ x, idx2 M i j = .ok x ∧ True := by
  obtain ⟨r, h1, h2⟩ := rect_idx h hi
  obtain ⟨x, h3, _⟩ := idx_lt_mem (l := r) (i := j) (by rw [h2]; exact hj)
  exact ⟨x, by simp [idx2, h1, h3], trivial⟩

theorem rect_firstRowLen {m n : Nat} {M : Matrix α} (h : Rect m n M) (hm : 0 < m) : firstRowLen M = .ok n := by
  obtain ⟨r, h1, h2⟩ := rect_idx h hm
  simp [firstRowLen, h1, h2]

theorem rect_isEmpty {m n : Nat} {M : Matrix α} (h : Rect m n M) (hm : 0 < m) (hn : 0 < n) : isEmptyMat M = false :=
  isEmptyMat_eq_false_iff.2 ⟨n, hn, rect_firstRowLen h hm⟩

theorem rect_col {n : Nat} {l : List α} (h : l.length = n) : Rect n 1 (vecToColVec l) := by
  constructor
  · simp [vecToColVec, h]
  · intro r hr
    simp only [vecToColVec, List.mem_map] at hr
    obtain ⟨a, _, rfl⟩ := hr
    rfl

theorem costs_assert {x y : Nat} (h : x = y) : Costs w (liftM (assertEq x y)) 0 fun _ => True :=
  costs_lift ⟨(), by simp [assertEq, h], trivial⟩

theorem costs_assertT {x y : EquType} (h : x = y) : Costs w (liftM (assertEq x y)) 0 fun _ => True :=
  costs_lift ⟨(), by simp [assertEq, h], trivial⟩

theorem bounded_assert {x y : Nat} : Bounded w (liftM (assertEq x y)) 0 fun _ => x = y :=
  bounded_lift fun u h => by
    unfold assertEq at h
    split at h
    · assumption
    · cases h

theorem costs_firstRowLen {m n : Nat} {M : Matrix α} (h : Rect m n M) (hm : 0 < m) : Costs w (liftM (firstRowLen M)) 0 fun x => x = n :=
  costs_lift ⟨n, rect_firstRowLen h hm, rfl⟩

theorem costs_idx {m n : Nat} {M : Matrix α} (h : Rect m n M) {i : Nat} (hi : i < m) : Costs w (liftM (idx M i)) 0 fun r => r.length = n :=
  costs_lift (rect_idx h hi)

theorem costs_get {n : Nat} {l : List α} (h : l.length = n) {i : Nat} (hi : i < n) : Costs w (liftM (idx l i)) 0 fun _ => True := by
  obtain ⟨x, h1, _⟩ := idx_lt_mem (l := l) (i := i) (h ▸ hi)
  exact costs_lift ⟨x, h1, trivial⟩

theorem costs_idx2 {m n : Nat} {M : Matrix α} (h : Rect m n M) {i j : Nat} (hi : i < m) (hj : j < n) :
    Costs w (liftM (idx2 M i j)) 0 fun _ => True := costs_lift (rect_idx2 h hi hj)

theorem costs_colVecToVec {n : Nat} {M : Matrix α} (h : Rect n 1 M) : Costs w (liftM (colVecToVec M)) 0 fun l => l.length = n := by
  refine costs_lift ?_
  unfold colVecToVec
  split
  · rename_i h1
    rw [h.1] at h1
    subst h1
    exact rect_idx h Nat.zero_lt_one
  · have h1 := (collect_isOk_iff (f := fun v => idx v 0) (l := M)).2 fun r hr => by
      obtain ⟨x, hx, _⟩ := idx_lt_mem (l := r) (i := 0) (by rw [h.2 r hr]; exact Nat.zero_lt_one)
      exact ⟨x, hx⟩
    obtain ⟨l, hl⟩ := h1
    exact ⟨l, hl, by rw [collect_length hl, h.1]⟩

theorem costs_transpose {F : Type} [Field F] {m n : Nat} {M : Matrix F} (h : Rect m n M) (hm : 0 < m) :
    Costs w (liftM (FieldMat.transpose M)) 0 (Rect n m) := by
  obtain ⟨f, rfl⟩ := (rect_iff (M := M)).1 h
  exact costs_lift ⟨_, FieldMat.transpose_matOf hm f, rect_matOf' _⟩

end

section
variable {F G : Type} [Field F] [AddCommGroup G] [Module F G] {w : Op → Nat}

theorem costs_comAdd (g : Grp) (a b : Com G) : Costs w (Com.addTr g a b) (2 * w (.add g)) fun _ => True :=
  ⟨_, rfl, trivial, by show [w (.add g), w (.add g)].sum = _; simp; ring⟩

theorem costs_comMul (g : Grp) (a : Com G) (x : F) : Costs w (Com.scalarMulTr g a x) (2 * w (.mul g)) fun _ => True :=
  ⟨_, rfl, trivial, by show [w (.mul g), w (.mul g)].sum = _; simp; ring⟩

theorem costs_matAdd (g : Grp) {m n : Nat} {M N : Matrix (Com G)} (hM : Rect m n M) (hN : Rect m n N) (hm : 0 < m) :
    Costs w (ComMat.addTr g M N) (m * n * (2 * w (.add g))) (Rect m n) := by
  refine (costs_bind (costs_assert (by rw [hM.1, hN.1])) fun _ _ => costs_bind (costs_firstRowLen hM hm) fun _ h1 =>
    costs_bind (costs_firstRowLen hN hm) fun _ h2 => costs_bind (costs_assert (by rw [h1, h2])) fun _ _ =>
    costs_bind (costs_firstRowLen hM hm) fun k hk => (?_ : Costs w _ (m * n * (2 * w (.add g))) (Rect m n))).eq (by ring)
  subst hk
  rw [← hM.1]
  refine costs_seqGrid fun i hi j hj => ?_
  rw [hM.1] at hi
  exact (costs_bind (costs_idx2 hM hi hj) fun _ _ => costs_bind (costs_idx2 hN hi hj) fun _ _ => costs_comAdd g _ _).eq (by ring)

theorem costs_leftMul (g : Grp) (sch : Scheduler) {m n k : Nat} {M : Matrix (Com G)} {L : Matrix F} (b : Bool)
    (hM : Rect n k M) (hL : Rect m n L) (hm : 0 < m) (hn : 0 < n) (hk : 0 < k) :
    Costs w (ComMat.leftMulTr g sch M L b) (m * k * (n * (2 * w (.mul g) + 2 * w (.add g)))) (Rect m k) := by
  have entry : ∀ i < L.length, ∀ j < k, Costs w (do
      let row ← idx L i
      Tr.fold (fun a k => do Com.addTr g a (← Com.scalarMulTr g (← idx2 M k j) (← idx row k))) 0 (List.range M.length))
      (n * (2 * w (.mul g) + 2 * w (.add g))) fun _ => True := by
    intro i hi j hj
    rw [hL.1] at hi
    refine (costs_bind (costs_idx hL hi) fun row hr => costs_fold (c := 2 * w (.mul g) + 2 * w (.add g)) _ fun a q hq => ?_).eq
      (by rw [List.length_range, hM.1]; ring)
    rw [List.mem_range, hM.1] at hq
    exact (costs_bind (costs_idx2 hM hq hj) fun _ _ => costs_bind (costs_get hr hq) fun _ _ =>
      costs_bind (costs_comMul g _ _) fun _ _ => costs_comAdd g _ _).eq (by ring)
  unfold ComMat.leftMulTr
  rw [rect_isEmpty hL hm hn, rect_isEmpty hM hn hk]
  refine (costs_bind (costs_firstRowLen hL hm) fun _ h1 => costs_bind (costs_assert (by rw [h1, hM.1])) fun _ _ =>
    costs_bind (costs_firstRowLen hM hn) fun q hq =>
      (?_ : Costs w _ (m * k * (n * (2 * w (.mul g) + 2 * w (.add g)))) (Rect m k))).eq (by ring)
  subst hq
  rw [← hL.1]
  cases b
  · exact costs_seqGrid entry
  · exact costs_parGrid sch entry

/-- Whatever the shapes. -/
theorem bounded_leftMul (g : Grp) (sch : Scheduler) (M : List (Com G)) (L : Matrix F) (b : Bool) (hb : b = true) :
    Bounded w (ComMat.leftMulTr g sch (vecToColVec M) L b) (L.length * (M.length * (2 * w (.mul g) + 2 * w (.add g)))) fun _ => True := by
  subst hb
  have hM := rect_col (l := M) rfl
  have entry : ∀ i < L.length, ∀ j < 1, Bounded w (do
      let row ← idx L i
      Tr.fold (fun a k => do Com.addTr g a (← Com.scalarMulTr g (← idx2 (vecToColVec M) k j) (← idx row k))) 0
        (List.range (vecToColVec M).length))
      (M.length * (2 * w (.mul g) + 2 * w (.add g))) fun _ => True := by
    intro i hi j hj
    refine (bounded_bind (P := fun _ => True) (bounded_lift fun _ _ => trivial) fun row _ =>
      bounded_fold (c := 2 * w (.mul g) + 2 * w (.add g)) _ fun a q hq => ?_).le
      (by rw [List.length_range, hM.1, Nat.zero_add])
    exact (bounded_bind (P := fun _ => True) (bounded_lift fun _ _ => trivial) fun _ _ =>
      bounded_bind (P := fun _ => True) (bounded_lift fun _ _ => trivial) fun _ _ =>
      bounded_bind (costs_comMul g _ _).bounded fun _ _ => (costs_comAdd g _ _).bounded).le (by omega)
  unfold ComMat.leftMulTr
  cases isEmptyMat L
  · cases M with
    | nil => exact (bounded_pure trivial).le (Nat.zero_le _)
    | cons a M =>
      refine (bounded_bind (P := fun _ => True) (bounded_lift fun _ _ => trivial) fun _ _ =>
        bounded_bind (P := fun _ => True) (bounded_lift fun _ _ => trivial) fun _ _ =>
        bounded_bind (costs_firstRowLen hM (by simp)).bounded fun q hq =>
          (?_ : Bounded w _ (L.length * ((a :: M).length * (2 * w (.mul g) + 2 * w (.add g)))) fun _ => True)).le (by omega)
      subst hq
      exact (bounded_parGrid sch entry).le (by rw [Nat.mul_one])
  · exact (bounded_pure trivial).le (Nat.zero_le _)

end

section
variable {F : Type} [Field F] {w : Op → Nat}

theorem costs_fAdd {m n : Nat} {M N : Matrix F} (hM : Rect m n M) (hN : Rect m n N) (hm : 0 < m) :
    Costs w (FieldMat.addTr M N) (m * n * w (.add .F)) (Rect m n) := by
  refine (costs_bind (costs_assert (by rw [hM.1, hN.1])) fun _ _ => costs_bind (costs_firstRowLen hM hm) fun _ h1 =>
    costs_bind (costs_firstRowLen hN hm) fun _ h2 => costs_bind (costs_assert (by rw [h1, h2])) fun _ _ =>
    costs_bind (costs_firstRowLen hM hm) fun k hk => (?_ : Costs w _ (m * n * w (.add .F)) (Rect m n))).eq (by ring)
  subst hk
  rw [← hM.1]
  refine costs_seqGrid fun i hi j hj => ?_
  rw [hM.1] at hi
  exact (costs_bind (costs_idx2 hM hi hj) fun _ _ => costs_bind (costs_idx2 hN hi hj) fun _ _ => costs_op trivial).eq (by ring)

theorem costs_fNeg {m n : Nat} {M : Matrix F} (hM : Rect m n M) :
    Costs w (FieldMat.negTr M) (m * n * w (.neg .F)) (Rect m n) := by
  have := costs_collect (w := w) (l := List.range M.length) (c := n * w (.neg .F)) (Q := fun r => r.length = n)
    (f := fun i => do
      let row ← idx M i
      Tr.collect (fun j => do Tr.op (.neg .F) (-(← idx row j))) (List.range row.length)) fun i hi => by
    rw [List.mem_range, hM.1] at hi
    refine (costs_bind (costs_idx hM hi) fun row hr => (?_ : Costs w _ (n * w (.neg .F)) fun r : List F => r.length = n)).eq (Nat.zero_add _)
    obtain ⟨x, h1, h2, h3⟩ := costs_collect (w := w) (l := List.range row.length) (c := w (.neg .F)) (Q := fun _ => True)
      (f := fun j => do Tr.op (.neg .F) (-(← idx row j))) fun j hj => by
        rw [List.mem_range] at hj
        exact (costs_bind (costs_get rfl hj) fun _ _ => costs_op trivial).eq (Nat.zero_add _)
    exact ⟨x, h1, by simpa [hr] using h2.1, by simpa [hr] using h3⟩
  obtain ⟨x, h1, h2, h3⟩ := this
  exact ⟨x, h1, by simpa [Rect, hM.1] using h2, by rw [Nat.mul_assoc]; simpa [FieldMat.negTr, hM.1] using h3⟩

theorem costs_rightMul (sch : Scheduler) {m n k : Nat} {M R : Matrix F} (b : Bool)
    (hM : Rect m n M) (hR : Rect n k R) (hm : 0 < m) (hn : 0 < n) (hk : 0 < k) :
    Costs w (FieldMat.rightMulTr sch M R b) (m * k * (n * (w (.mul .F) + w (.add .F)))) (Rect m k) := by
  have entry : ∀ i < M.length, ∀ j < k, Costs w (do
      let row ← idx M i
      Tr.fold (fun a k => do
        let t ← Tr.op (.mul .F) ((← idx row k) * (← idx2 R k j))
        Tr.op (.add .F) (a + t)) 0 (List.range R.length))
      (n * (w (.mul .F) + w (.add .F))) fun _ => True := by
    intro i hi j hj
    rw [hM.1] at hi
    refine (costs_bind (costs_idx hM hi) fun row hr => costs_fold (c := w (.mul .F) + w (.add .F)) _ fun a q hq => ?_).eq
      (by rw [List.length_range, hR.1]; ring)
    rw [List.mem_range, hR.1] at hq
    exact (costs_bind (costs_get hr hq) fun _ _ => costs_bind (costs_idx2 hR hq hj) fun _ _ =>
      costs_bind (costs_op (P := fun _ => True) trivial) fun _ _ => costs_op trivial).eq (by ring)
  unfold FieldMat.rightMulTr
  rw [rect_isEmpty hM hm hn, rect_isEmpty hR hn hk]
  refine (costs_bind (costs_firstRowLen hM hm) fun _ h1 => costs_bind (costs_assert (by rw [h1, hR.1])) fun _ _ =>
    costs_bind (costs_firstRowLen hR hn) fun q hq =>
      (?_ : Costs w _ (m * k * (n * (w (.mul .F) + w (.add .F)))) (Rect m k))).eq (by ring)
  subst hq
  rw [← hM.1]
  cases b
  · exact costs_seqGrid entry
  · exact costs_parGrid sch entry

end
end GS
