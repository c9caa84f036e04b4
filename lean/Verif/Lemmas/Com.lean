import Verif.Model.Com
import Verif.Lemmas.Basic
import Mathlib.Algebra.Module.LinearMap.Defs
import Mathlib.Tactic.Abel
import Mathlib.Tactic.Module

/-! The commitment groups as vector spaces, and the commitment pairing as a bilinear map. -/

set_option linter.unusedSectionVars false
set_option linter.unusedVariables false

namespace GS

namespace Com
variable {G : Type} [AddCommGroup G]

@[simp] theorem add_c0 (a b : Com G) : (a + b).c0 = a.c0 + b.c0 := rfl
@[simp] theorem add_c1 (a b : Com G) : (a + b).c1 = a.c1 + b.c1 := rfl
@[simp] theorem neg_c0 (a : Com G) : (-a).c0 = -a.c0 := rfl
@[simp] theorem neg_c1 (a : Com G) : (-a).c1 = -a.c1 := rfl
@[simp] theorem zero_c0 : (0 : Com G).c0 = 0 := rfl
@[simp] theorem zero_c1 : (0 : Com G).c1 = 0 := rfl
@[simp] theorem sub_c0 (a b : Com G) : (a - b).c0 = a.c0 - b.c0 := (sub_eq_add_neg a.c0 b.c0).symm
@[simp] theorem sub_c1 (a b : Com G) : (a - b).c1 = a.c1 - b.c1 := (sub_eq_add_neg a.c1 b.c1).symm

instance : AddCommGroup (Com G) where
  add_assoc a b c := by ext <;> simp [add_assoc]
  zero_add a := by ext <;> simp
  add_zero a := by ext <;> simp
  add_comm a b := by ext <;> simp [add_comm]
  neg_add_cancel a := by ext <;> simp
  sub_eq_add_neg a b := rfl
  nsmul := nsmulRec
  zsmul := zsmulRec

variable {F : Type} [Field F] [Module F G]

instance : SMul F (Com G) := ⟨fun r a => a.scalarMul r⟩

theorem scalarMul_eq (a : Com G) (r : F) : a.scalarMul r = r • a := rfl
@[simp] theorem smul_c0 (r : F) (a : Com G) : (r • a).c0 = r • a.c0 := rfl
@[simp] theorem smul_c1 (r : F) (a : Com G) : (r • a).c1 = r • a.c1 := rfl

instance : Module F (Com G) where
  one_smul a := by ext <;> simp
  mul_smul r s a := by ext <;> simp [mul_smul]
  smul_zero r := by ext <;> simp
  smul_add r a b := by ext <;> simp
  add_smul r s a := by ext <;> simp [add_smul]
  zero_smul a := by ext <;> simp

/-- First component as a linear map. -/
def fst : Com G →ₗ[F] G where
  toFun a := a.c0
  map_add' _ _ := rfl
  map_smul' _ _ := rfl

/-- Second component as a linear map. -/
def snd : Com G →ₗ[F] G where
  toFun a := a.c1
  map_add' _ _ := rfl
  map_smul' _ _ := rfl

@[simp] theorem sum_c0 {ι : Type} (s : Finset ι) (f : ι → Com G) : (∑ i ∈ s, f i).c0 = ∑ i ∈ s, (f i).c0 := by
  classical
  induction s using Finset.induction_on with
  | empty => simp
  | insert a s ha ih => simp [Finset.sum_insert ha, ih]
@[simp] theorem sum_c1 {ι : Type} (s : Finset ι) (f : ι → Com G) : (∑ i ∈ s, f i).c1 = ∑ i ∈ s, (f i).c1 := by
  classical
  induction s using Finset.induction_on with
  | empty => simp
  | insert a s ha ih => simp [Finset.sum_insert ha, ih]

theorem eq_iff [DecidableEq G] (a b : Com G) : Com.eq a b = true ↔ a = b := by
  simp [Com.eq, Com.ext_iff]

end Com

namespace ComT
variable {GT : Type} [AddCommGroup GT]

@[simp] theorem add_t0 (a b : ComT GT) : (a + b).t0 = a.t0 + b.t0 := rfl
@[simp] theorem add_t1 (a b : ComT GT) : (a + b).t1 = a.t1 + b.t1 := rfl
@[simp] theorem add_t2 (a b : ComT GT) : (a + b).t2 = a.t2 + b.t2 := rfl
@[simp] theorem add_t3 (a b : ComT GT) : (a + b).t3 = a.t3 + b.t3 := rfl
@[simp] theorem neg_t0 (a : ComT GT) : (-a).t0 = -a.t0 := rfl
@[simp] theorem neg_t1 (a : ComT GT) : (-a).t1 = -a.t1 := rfl
@[simp] theorem neg_t2 (a : ComT GT) : (-a).t2 = -a.t2 := rfl
@[simp] theorem neg_t3 (a : ComT GT) : (-a).t3 = -a.t3 := rfl
@[simp] theorem sub_t0 (a b : ComT GT) : (a - b).t0 = a.t0 - b.t0 := rfl
@[simp] theorem sub_t1 (a b : ComT GT) : (a - b).t1 = a.t1 - b.t1 := rfl
@[simp] theorem sub_t2 (a b : ComT GT) : (a - b).t2 = a.t2 - b.t2 := rfl
@[simp] theorem sub_t3 (a b : ComT GT) : (a - b).t3 = a.t3 - b.t3 := rfl
@[simp] theorem zero_t0 : (0 : ComT GT).t0 = 0 := rfl
@[simp] theorem zero_t1 : (0 : ComT GT).t1 = 0 := rfl
@[simp] theorem zero_t2 : (0 : ComT GT).t2 = 0 := rfl
@[simp] theorem zero_t3 : (0 : ComT GT).t3 = 0 := rfl

instance : AddCommGroup (ComT GT) where
  add_assoc a b c := by ext <;> simp [add_assoc]
  zero_add a := by ext <;> simp
  add_zero a := by ext <;> simp
  add_comm a b := by ext <;> simp [add_comm]
  neg_add_cancel a := by ext <;> simp
  sub_eq_add_neg a b := by ext <;> simp [sub_eq_add_neg]
  nsmul := nsmulRec
  zsmul := zsmulRec

variable {F : Type} [Field F] [Module F GT]

instance : SMul F (ComT GT) := ⟨fun r a => ⟨r • a.t0, r • a.t1, r • a.t2, r • a.t3⟩⟩
@[simp] theorem smul_t0 (r : F) (a : ComT GT) : (r • a).t0 = r • a.t0 := rfl
@[simp] theorem smul_t1 (r : F) (a : ComT GT) : (r • a).t1 = r • a.t1 := rfl
@[simp] theorem smul_t2 (r : F) (a : ComT GT) : (r • a).t2 = r • a.t2 := rfl
@[simp] theorem smul_t3 (r : F) (a : ComT GT) : (r • a).t3 = r • a.t3 := rfl

instance : Module F (ComT GT) where
  one_smul a := by ext <;> simp
  mul_smul r s a := by ext <;> simp [mul_smul]
  smul_zero r := by ext <;> simp
  smul_add r a b := by ext <;> simp
  add_smul r s a := by ext <;> simp [add_smul]
  zero_smul a := by ext <;> simp

theorem eq_iff [DecidableEq GT] (a b : ComT GT) : ComT.eq a b = true ↔ a = b := by
  simp [ComT.eq, ComT.ext_iff, and_assoc]

theorem eq_eq_decide [DecidableEq GT] (a b : ComT GT) : ComT.eq a b = decide (a = b) := by
  rw [Bool.eq_iff_iff, eq_iff]; simp

variable {G1 G2 : Type} [AddCommGroup G1] [Module F G1] [AddCommGroup G2] [Module F G2]

/-- `ComT.pairing` as a bilinear map. -/
def pairL (e : G1 →ₗ[F] G2 →ₗ[F] GT) : Com G1 →ₗ[F] Com G2 →ₗ[F] ComT GT :=
  LinearMap.mk₂ F (pairing e)
    (fun a b c => by ext <;> simp [pairing])
    (fun r a b => by ext <;> simp [pairing])
    (fun a b c => by ext <;> simp [pairing])
    (fun r a b => by ext <;> simp [pairing])

@[simp] theorem pairL_apply (e : G1 →ₗ[F] G2 →ₗ[F] GT) (a : Com G1) (b : Com G2) :
    pairL e a b = pairing e a b := rfl

theorem pairing_eq (e : G1 →ₗ[F] G2 →ₗ[F] GT) (a : Com G1) (b : Com G2) :
    pairing e a b = pairL e a b := rfl

theorem sum_ext {ι : Type} (s : Finset ι) (f : ι → ComT GT) :
    (∑ i ∈ s, f i) = ⟨∑ i ∈ s, (f i).t0, ∑ i ∈ s, (f i).t1, ∑ i ∈ s, (f i).t2, ∑ i ∈ s, (f i).t3⟩ := by
  classical
  induction s using Finset.induction_on with
  | empty => rfl
  | insert a s ha ih => simp only [Finset.sum_insert ha, ih]; ext <;> simp

theorem list_sum_ext (l : List (ComT GT)) :
    l.sum = ⟨(l.map ComT.t0).sum, (l.map ComT.t1).sum, (l.map ComT.t2).sum, (l.map ComT.t3).sum⟩ := by
  induction l with
  | nil => rfl
  | cons a l ih => simp only [List.sum_cons, ih, List.map_cons]; ext <;> simp

theorem pairingSum_iff (e : G1 →ₗ[F] G2 →ₗ[F] GT) {xs : List (Com G1)} {ys : List (Com G2)} {t : ComT GT} :
    pairingSum e xs ys = .ok t ↔
      xs.length = ys.length ∧ t = (List.zipWith (fun x y => pairing e x y) xs ys).sum := by
  simp only [pairingSum, bind_ok_iff, assertEq_ok_iff, pure_eq_ok, Except.ok.injEq,
    exists_const, multiPairing, rustSum_eq_sum, list_sum_ext, List.map_zipWith, pairing,
    List.zipWith_map]
  exact and_congr_right fun _ => eq_comm

theorem pairingSum_ofFn (e : G1 →ₗ[F] G2 →ₗ[F] GT) {n : Nat} (x : Fin n → Com G1) (y : Fin n → Com G2) :
    pairingSum e (List.ofFn x) (List.ofFn y) = .ok (∑ i, pairL e (x i) (y i)) := by
  rw [pairingSum_iff]
  refine ⟨by simp, ?_⟩
  rw [← List.sum_ofFn]
  congr 1
  apply List.ext_getElem <;> simp

end ComT

section maps
variable {F G1 G2 GT : Type} [Field F] [AddCommGroup G1] [Module F G1] [AddCommGroup G2] [Module F G2]

/-- `Com1.linearMap` as a linear map. -/
def i1 : G1 →ₗ[F] Com G1 where
  toFun := Com1.linearMap
  map_add' x y := by ext <;> simp [Com1.linearMap]
  map_smul' r x := by ext <;> simp [Com1.linearMap]

/-- `Com2.linearMap` as a linear map. -/
def i2 : G2 →ₗ[F] Com G2 where
  toFun := Com2.linearMap
  map_add' x y := by ext <;> simp [Com2.linearMap]
  map_smul' r x := by ext <;> simp [Com2.linearMap]

theorem i1_apply (x : G1) : (i1 : G1 →ₗ[F] Com G1) x = ⟨0, x⟩ := rfl
theorem i2_apply (x : G2) : (i2 : G2 →ₗ[F] Com G2) x = ⟨0, x⟩ := rfl

theorem batchLinearMap1_ofFn {n : Nat} (x : Fin n → G1) :
    Com1.batchLinearMap (List.ofFn x) = List.ofFn fun i => (i1 (F := F) (x i)) := by
  simp [Com1.batchLinearMap, List.map_ofFn, Function.comp_def, i1]

theorem batchLinearMap2_ofFn {n : Nat} (x : Fin n → G2) :
    Com2.batchLinearMap (List.ofFn x) = List.ofFn fun i => (i2 (F := F) (x i)) := by
  simp [Com2.batchLinearMap, List.map_ofFn, Function.comp_def, i2]

theorem scalarLinearMap1_iff {x : F} {key : CRS G1 G2 GT} {c : Com G1} :
    Com1.scalarLinearMap x key = .ok c ↔ ∃ w, key.u[1]? = some w ∧ c = x • (w + Com1.linearMap key.g1_gen) := by
  simp only [Com1.scalarLinearMap, bind_ok_iff, idx_eq_ok, pure_eq_ok, Except.ok.injEq, Com.scalarMul_eq]
  exact exists_congr fun _ => and_congr_right fun _ => eq_comm

theorem scalarLinearMap2_iff {x : F} {key : CRS G1 G2 GT} {c : Com G2} :
    Com2.scalarLinearMap x key = .ok c ↔ ∃ w, key.v[1]? = some w ∧ c = x • (w + Com2.linearMap key.g2_gen) := by
  simp only [Com2.scalarLinearMap, bind_ok_iff, idx_eq_ok, pure_eq_ok, Except.ok.injEq, Com.scalarMul_eq]
  exact exists_congr fun _ => and_congr_right fun _ => eq_comm

theorem batchScalarLinearMap1_ofFn {n : Nat} (x : Fin n → F) {key : CRS G1 G2 GT} {w : Com G1}
    (hw : key.u[1]? = some w) :
    Com1.batchScalarLinearMap (List.ofFn x) key =
      .ok (List.ofFn fun i => x i • (w + Com1.linearMap key.g1_gen)) :=
  collect_ofFn fun i => scalarLinearMap1_iff.mpr ⟨w, hw, rfl⟩

theorem batchScalarLinearMap2_ofFn {n : Nat} (x : Fin n → F) {key : CRS G1 G2 GT} {w : Com G2}
    (hw : key.v[1]? = some w) :
    Com2.batchScalarLinearMap (List.ofFn x) key =
      .ok (List.ofFn fun i => x i • (w + Com2.linearMap key.g2_gen)) :=
  collect_ofFn fun i => scalarLinearMap2_iff.mpr ⟨w, hw, rfl⟩

end maps
end GS
