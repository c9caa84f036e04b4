import Verif.Model.Par
import Verif.Spec.Basic
import Mathlib.Data.List.OfFn
import Mathlib.Data.Fintype.Basic
import Mathlib.Algebra.BigOperators.Fin

/-! Helper lemmas about panics, indexing, loops and the parallel grid. -/

namespace GS
variable {α β γ : Type}

theorem bind_ok_iff {x : Res α} {f : α → Res β} {b : β} :
    (x >>= f) = .ok b ↔ ∃ a, x = .ok a ∧ f a = .ok b := by
  cases x <;> simp [bind, Except.bind]

theorem bind_isOk_iff {x : Res α} {f : α → Res β} :
    (x >>= f).Ok ↔ ∃ a, x = .ok a ∧ (f a).Ok := by
  cases x <;> simp [bind, Except.bind, Res.Ok]

@[simp] theorem ok_bind (a : α) (f : α → Res β) : ((Except.ok a : Res α) >>= f) = f a := rfl
@[simp] theorem pure_eq_ok (a : α) : (pure a : Res α) = .ok a := rfl
@[simp] theorem error_bind (p : Panic) (f : α → Res β) :
    ((Except.error p : Res α) >>= f) = .error p := rfl

@[simp] theorem not_ok_error (p : Panic) : ¬ Res.Ok (.error p : Res α) := by
  rintro ⟨a, h⟩; cases h
@[simp] theorem ok_ok (a : α) : Res.Ok (.ok a : Res α) := ⟨a, rfl⟩

theorem not_ok_iff {x : Res α} : ¬ x.Ok ↔ ∃ p, x = .error p := by
  cases x <;> simp

@[simp] theorem assertEq_ok_iff [DecidableEq α] {a b : α} {u : Unit} :
    assertEq a b = .ok u ↔ a = b := by
  unfold assertEq; split <;> simp_all

@[simp] theorem assertEq_self [DecidableEq α] (a : α) : assertEq a a = .ok () := by
  simp [assertEq]

theorem assertEq_eq [DecidableEq α] {a b : α} (h : a = b) : assertEq a b = .ok () := by
  simp [assertEq, h]

theorem idx_eq_ok {l : List α} {i : Nat} {a : α} : idx l i = .ok a ↔ l[i]? = some a := by
  induction l generalizing i with
  | nil => simp [idx]
  | cons b l ih => cases i <;> simp [idx, ih]

theorem idx_ok_iff {l : List α} {i : Nat} : (idx l i).Ok ↔ i < l.length := by
  simp only [Res.Ok, idx_eq_ok]
  constructor
  · rintro ⟨a, h⟩; exact (List.getElem?_eq_some_iff.mp h).1
  · intro h; exact ⟨l[i], by simp [h]⟩

theorem idx_of_lt {l : List α} {i : Nat} (h : i < l.length) : idx l i = .ok l[i] := by
  rw [idx_eq_ok]; simp [h]

@[simp] theorem idx_cons_zero (a : α) (l : List α) : idx (a :: l) 0 = .ok a := rfl
@[simp] theorem idx_cons_succ (a : α) (l : List α) (i : Nat) : idx (a :: l) (i + 1) = idx l i := rfl
@[simp] theorem idx_cons_one (a : α) (l : List α) : idx (a :: l) 1 = idx l 0 := rfl
@[simp] theorem idx_nil (i : Nat) : idx ([] : List α) i = .error .indexOutOfBounds := rfl

@[simp] theorem idx_ofFn {n : Nat} (f : Fin n → α) (i : Fin n) : idx (List.ofFn f) i = .ok (f i) := by
  rw [idx_eq_ok]; simp

theorem idx_ofFn_lt {n : Nat} (f : Fin n → α) {i : Nat} (h : i < n) :
    idx (List.ofFn f) i = .ok (f ⟨i, h⟩) := idx_ofFn f ⟨i, h⟩

theorem idx2_eq_ok {m : Matrix α} {i j : Nat} {a : α} :
    idx2 m i j = .ok a ↔ ∃ row, m[i]? = some row ∧ row[j]? = some a := by
  simp [idx2, bind_ok_iff, idx_eq_ok]

/-! ### `collect` -/

@[simp] theorem collect_nil (f : α → Res β) : collect f [] = .ok [] := rfl

theorem collect_cons_ok {f : α → Res β} {a : α} {l : List α} {r : List β} :
    collect f (a :: l) = .ok r ↔ ∃ b bs, f a = .ok b ∧ collect f l = .ok bs ∧ r = b :: bs := by
  simp only [collect, bind_ok_iff, pure_eq_ok, Except.ok.injEq]
  constructor
  · rintro ⟨b, hb, bs, hbs, rfl⟩; exact ⟨b, bs, hb, hbs, rfl⟩
  · rintro ⟨b, bs, hb, hbs, rfl⟩; exact ⟨b, hb, bs, hbs, rfl⟩

theorem collect_ok_iff {f : α → Res β} {l : List α} {r : List β} :
    collect f l = .ok r ↔ List.Forall₂ (fun a b => f a = .ok b) l r := by
  induction l generalizing r with
  | nil =>
    simp only [collect_nil, Except.ok.injEq, List.forall₂_nil_left_iff]
    exact eq_comm
  | cons a l ih =>
    rw [collect_cons_ok, List.forall₂_cons_left_iff]
    constructor
    · rintro ⟨b, bs, hb, hbs, rfl⟩; exact ⟨b, bs, hb, ih.mp hbs, rfl⟩
    · rintro ⟨b, bs, hb, hbs, rfl⟩; exact ⟨b, bs, hb, ih.mpr hbs, rfl⟩

theorem collect_isOk_iff {f : α → Res β} {l : List α} :
    (collect f l).Ok ↔ ∀ a ∈ l, (f a).Ok := by
  induction l with
  | nil => simp
  | cons a l ih =>
    constructor
    · rintro ⟨r, h⟩
      obtain ⟨b, bs, hb, hbs, rfl⟩ := collect_cons_ok.mp h
      intro x hx
      rcases List.mem_cons.mp hx with rfl | hx
      · exact ⟨b, hb⟩
      · exact ih.mp ⟨bs, hbs⟩ x hx
    · intro h
      obtain ⟨b, hb⟩ := h a (by simp)
      obtain ⟨bs, hbs⟩ := ih.mpr fun x hx => h x (by simp [hx])
      exact ⟨b :: bs, collect_cons_ok.mpr ⟨b, bs, hb, hbs, rfl⟩⟩

theorem collect_map {f : β → Res γ} {g : α → β} {l : List α} :
    collect f (l.map g) = collect (fun a => f (g a)) l := by
  induction l with
  | nil => rfl
  | cons a l ih => simp [collect, ih]

theorem collect_ok_map {f : α → Res β} {g : α → β} {l : List α} (h : ∀ a ∈ l, f a = .ok (g a)) :
    collect f l = .ok (l.map g) := by
  induction l with
  | nil => rfl
  | cons a l ih =>
    simp [collect, h a (by simp), ih fun x hx => h x (by simp [hx])]

theorem collect_congr {f g : α → Res β} {l : List α} (h : ∀ a ∈ l, f a = g a) :
    collect f l = collect g l := by
  induction l with
  | nil => rfl
  | cons a l ih => simp [collect, h a (by simp), ih fun x hx => h x (by simp [hx])]

theorem collect_length {f : α → Res β} {l : List α} {r : List β} (h : collect f l = .ok r) :
    r.length = l.length := (collect_ok_iff.mp h).length_eq.symm

theorem collect_range_iff {n : Nat} {f : Nat → Res β} {r : List β} :
    collect f (List.range n) = .ok r ↔ ∃ g : Fin n → β, r = List.ofFn g ∧ ∀ i : Fin n, f i = .ok (g i) := by
  rw [collect_ok_iff, List.forall₂_iff_get]
  constructor
  · rintro ⟨hl, h⟩
    simp only [List.length_range] at hl
    subst hl
    refine ⟨fun i => r.get i, by simp, fun i => ?_⟩
    have := h i (by simp) i.2
    simpa using this
  · rintro ⟨g, rfl, h⟩
    refine ⟨by simp, fun i h1 h2 => ?_⟩
    simp only [List.length_range] at h1
    simpa using h ⟨i, h1⟩

theorem collect_range_ofFn {n : Nat} {f : Nat → Res β} {g : Fin n → β}
    (h : ∀ i : Fin n, f i = .ok (g i)) : collect f (List.range n) = .ok (List.ofFn g) :=
  collect_range_iff.mpr ⟨g, rfl, h⟩

theorem collect_ofFn {n : Nat} {f : α → Res β} {x : Fin n → α} {g : Fin n → β}
    (h : ∀ i, f (x i) = .ok (g i)) : collect f (List.ofFn x) = .ok (List.ofFn g) := by
  rw [collect_ok_iff, List.forall₂_iff_get]
  exact ⟨by simp, fun i h1 h2 => by simpa using h _⟩

/-! ### `foldRes` -/

@[simp] theorem foldRes_nil (f : β → α → Res β) (b : β) : foldRes f b [] = .ok b := rfl
@[simp] theorem foldRes_cons (f : β → α → Res β) (b : β) (a : α) (l : List α) :
    foldRes f b (a :: l) = (f b a >>= fun b' => foldRes f b' l) := rfl

/-! ### Rectangular matrices -/

/-- The list-of-lists form of an `m × n` matrix. -/
def matOf {m n : Nat} (f : Fin m → Fin n → α) : Matrix α := List.ofFn fun i => List.ofFn (f i)

theorem rect_matOf {m n : Nat} (f : Fin m → Fin n → α) : Rect m n (matOf f) := by
  refine ⟨by simp [matOf], ?_⟩
  intro r hr
  simp only [matOf, List.mem_ofFn] at hr
  obtain ⟨i, rfl⟩ := hr
  simp

theorem exists_ofFn (l : List α) {n : Nat} (h : l.length = n) : ∃ f : Fin n → α, l = List.ofFn f := by
  subst h; exact ⟨l.get, by simp⟩

theorem rect_iff {m n : Nat} {M : Matrix α} : Rect m n M ↔ ∃ f : Fin m → Fin n → α, M = matOf f := by
  constructor
  · rintro ⟨hm, hn⟩
    subst hm
    have : ∀ i : Fin M.length, ∃ f : Fin n → α, M.get i = List.ofFn f :=
      fun i => exists_ofFn _ (hn _ (List.get_mem ..))
    choose f hf using this
    refine ⟨f, ?_⟩
    simp only [matOf, ← hf]
    simp
  · rintro ⟨f, rfl⟩; exact rect_matOf f

@[simp] theorem length_matOf {m n : Nat} (f : Fin m → Fin n → α) : (matOf f).length = m := by
  simp [matOf]

theorem idx_matOf {m n : Nat} (f : Fin m → Fin n → α) (i : Fin m) :
    idx (matOf f) i = .ok (List.ofFn (f i)) := by simp [matOf]

theorem idx_matOf_lt {m n : Nat} (f : Fin m → Fin n → α) {i : Nat} (h : i < m) :
    idx (matOf f) i = .ok (List.ofFn (f ⟨i, h⟩)) := idx_matOf f ⟨i, h⟩

@[simp] theorem idx2_matOf {m n : Nat} (f : Fin m → Fin n → α) (i : Fin m) (j : Fin n) :
    idx2 (matOf f) i j = .ok (f i j) := by simp [idx2, idx_matOf]

theorem firstRowLen_matOf {m n : Nat} (hm : 0 < m) (f : Fin m → Fin n → α) :
    firstRowLen (matOf f) = .ok n := by
  simp [firstRowLen, idx_matOf_lt f hm]

theorem isEmptyMat_matOf {m n : Nat} (hm : 0 < m) (hn : 0 < n) (f : Fin m → Fin n → α) :
    isEmptyMat (matOf f) = false := by
  obtain ⟨m, rfl⟩ := Nat.exists_eq_succ_of_ne_zero hm.ne'
  obtain ⟨n, rfl⟩ := Nat.exists_eq_succ_of_ne_zero hn.ne'
  simp [matOf, isEmptyMat, List.ofFn_succ]

theorem matOf_inj {m n : Nat} {f g : Fin m → Fin n → α} : matOf f = matOf g ↔ f = g := by
  constructor
  · intro h
    funext i j
    have h1 := idx2_matOf f i j
    rw [h, idx2_matOf] at h1
    exact (Except.ok.inj h1).symm
  · rintro rfl; rfl

theorem ofFn_inj {n : Nat} {f g : Fin n → α} : List.ofFn f = List.ofFn g ↔ f = g :=
  ⟨fun h => List.ofFn_injective h, by rintro rfl; rfl⟩

/-! ### Grids -/

theorem seqGrid_iff {m n : Nat} {f : Nat → Nat → Res β} {M : Matrix β} :
    seqGrid m n f = .ok M ↔ ∃ g : Fin m → Fin n → β, M = matOf g ∧ ∀ (i : Fin m) (j : Fin n), f i j = .ok (g i j) := by
  unfold seqGrid
  rw [collect_range_iff]
  constructor
  · rintro ⟨g, rfl, h⟩
    have : ∀ i : Fin m, ∃ r : Fin n → β, g i = List.ofFn r ∧ ∀ j : Fin n, f i j = .ok (r j) :=
      fun i => collect_range_iff.mp (h i)
    choose r hr using this
    exact ⟨r, by simp [matOf, ← (hr _).1], fun i j => (hr i).2 j⟩
  · rintro ⟨g, rfl, h⟩
    exact ⟨fun i => List.ofFn (g i), rfl, fun i => collect_range_ofFn fun j => h i j⟩

theorem mem_grid {m n : Nat} {p : Nat × Nat} : p ∈ grid m n ↔ p.1 < m ∧ p.2 < n := by
  rcases p with ⟨i, j⟩
  simp [grid]

theorem runTasks_ok {f : Nat → Nat → Res β} {order : List (Nat × Nat)} {s s' : Slots β}
    (h : runTasks f order s = .ok s') (q : Nat × Nat) :
    (q ∈ order → ∃ b, f q.1 q.2 = .ok b ∧ s' q = some b) ∧ (q ∉ order → s' q = s q) := by
  induction order generalizing s with
  | nil =>
    simp only [runTasks, foldRes_nil, Except.ok.injEq] at h
    subst h; simp
  | cons p order ih =>
    simp only [runTasks, foldRes_cons, bind_ok_iff, pure_eq_ok, Except.ok.injEq] at h
    obtain ⟨s1, ⟨b, hb, rfl⟩, h2⟩ := h
    obtain ⟨ih1, ih2⟩ := ih h2
    by_cases hq : q ∈ order
    · exact ⟨fun _ => ih1 hq, fun hn => absurd (List.mem_cons_of_mem _ hq) hn⟩
    · have hs := ih2 hq
      by_cases hqp : q = p
      · subst hqp
        refine ⟨fun _ => ⟨b, hb, by simpa [Slots.write] using hs⟩, fun hn => absurd (by simp) hn⟩
      · refine ⟨fun hm => absurd hm (by simp [hq, hqp]), fun _ => ?_⟩
        rw [hs]; simp [Slots.write, hqp]

theorem runTasks_isOk {f : Nat → Nat → Res β} {order : List (Nat × Nat)} {s : Slots β}
    (h : ∀ p ∈ order, (f p.1 p.2).Ok) : (runTasks f order s).Ok := by
  induction order generalizing s with
  | nil => simp [runTasks]
  | cons p order ih =>
    obtain ⟨b, hb⟩ := h p (by simp)
    simp only [runTasks, foldRes_cons, hb, ok_bind, pure_eq_ok]
    exact ih fun q hq => h q (by simp [hq])

theorem parGrid_iff (sch : Scheduler) {m n : Nat} {f : Nat → Nat → Res β} {M : Matrix β} :
    parGrid sch m n f = .ok M ↔ ∃ g : Fin m → Fin n → β, M = matOf g ∧ ∀ (i : Fin m) (j : Fin n), f i j = .ok (g i j) := by
  have hmem : ∀ p, p ∈ sch.order m n ↔ p.1 < m ∧ p.2 < n := fun p => by
    rw [(sch.complete m n).mem_iff, mem_grid]
  have key : ∀ s : Slots β, collect (fun i => collect (fun j => s.read (i, j)) (List.range n)) (List.range m) =
      seqGrid m n (fun i j => s.read (i, j)) := fun s => rfl
  unfold parGrid
  rw [bind_ok_iff]
  constructor
  · rintro ⟨s, hs, hM⟩
    rw [key, seqGrid_iff] at hM
    obtain ⟨g, rfl, hg⟩ := hM
    refine ⟨g, rfl, fun i j => ?_⟩
    obtain ⟨b, hb, hsb⟩ := (runTasks_ok hs (i.val, j.val)).1 ((hmem _).mpr ⟨i.2, j.2⟩)
    have := hg i j
    simp only [Slots.read, hsb, Except.ok.injEq] at this
    rw [← this]; exact hb
  · rintro ⟨g, rfl, hg⟩
    obtain ⟨s, hs⟩ := runTasks_isOk (f := f) (s := fun _ => none) (order := sch.order m n)
      (fun p hp => by
        obtain ⟨h1, h2⟩ := (hmem p).mp hp
        exact ⟨_, hg ⟨p.1, h1⟩ ⟨p.2, h2⟩⟩)
    refine ⟨s, hs, ?_⟩
    rw [key, seqGrid_iff]
    refine ⟨g, rfl, fun i j => ?_⟩
    obtain ⟨b, hb, hsb⟩ := (runTasks_ok hs (i.val, j.val)).1 ((hmem _).mpr ⟨i.2, j.2⟩)
    have hb' := hg i j
    rw [hb] at hb'
    simp only [Slots.read, hsb]
    exact hb'

theorem parGrid_ok_iff_seqGrid (sch : Scheduler) {m n : Nat} {f : Nat → Nat → Res β} {M : Matrix β} :
    parGrid sch m n f = .ok M ↔ seqGrid m n f = .ok M := by
  rw [parGrid_iff, seqGrid_iff]

/-! ### Sums -/

theorem rustSum_eq_sum [AddCommMonoid α] (l : List α) : rustSum l = l.sum := by
  rw [List.sum_eq_foldl]; rfl

theorem rustSum_ofFn [AddCommMonoid α] {n : Nat} (f : Fin n → α) : rustSum (List.ofFn f) = ∑ i, f i := by
  rw [rustSum_eq_sum, List.sum_ofFn]

end GS
