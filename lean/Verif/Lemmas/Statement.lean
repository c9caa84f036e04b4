import Verif.Spec.Target
import Verif.Lemmas.Bls381
import Verif.Props.AnyCrs

/-! # Lemmas about statements that are read from bytes -/

set_option linter.unusedSectionVars false

namespace GS

section lift
variable {H R : Type} {c : Codec R} {j : H → R}

theorem Represents.of_reads (h : Represents c j) {m : Compress} {a : R} {bs : Bytes} (hr : c.Reads m .No a bs) (hv : c.Valid a) : ∃ x, j x = a :=
  h.inside m _ _ _ ((h.orderly.validate _ _ _ _).mpr ⟨hr [], hv⟩)

theorem map_lift {l : List R} (h : ∀ a ∈ l, ∃ x, j x = a) : ∃ l' : List H, l'.map j = l := by
  induction l with
  | nil => exact ⟨[], rfl⟩
  | cons a l ih =>
    obtain ⟨x, rfl⟩ := h a (by simp)
    obtain ⟨l', rfl⟩ := ih fun b hb => h b (by simp [hb])
    exact ⟨x :: l', rfl⟩

theorem Represents.list (h : Represents c j) {m : Compress} {l : List R} {bs : Bytes} (hr : VecIn (c.Reads m .No) l bs) (hv : ∀ a ∈ l, c.Valid a) :
    ∃ l' : List H, l'.map j = l := map_lift fun a ha => by
  obtain ⟨b, hb⟩ := vecIn_mem hr ha
  exact h.of_reads hb (hv a ha)

theorem Represents.coms (h : Represents c j) {m : Compress} {l : List (Com R)} {bs : Bytes} (hr : VecIn (Com.In (c.Reads m .No)) l bs)
    (hv : ∀ a ∈ l, a.Elems c.Valid) : ∃ l' : List (Com H), l'.map (Com.on j) = l := map_lift fun a ha => by
  obtain ⟨b, b0, b1, -, r0, r1⟩ := vecIn_mem hr ha
  obtain ⟨x, hx⟩ := h.of_reads r0 (hv a ha).1
  obtain ⟨y, hy⟩ := h.of_reads r1 (hv a ha).2
  exact ⟨⟨x, y⟩, by rw [Com.on, hx, hy]⟩

theorem com_on_injective (h : Function.Injective j) : Function.Injective (Com.on j) := fun a b hab => by
  obtain ⟨a0, a1⟩ := a; obtain ⟨b0, b1⟩ := b
  simp only [Com.on, Com.mk.injEq] at hab
  rw [h hab.1, h hab.2]

end lift

variable {F H1 H2 GT R1 R2 RT : Type} [Field F] {cF : Codec F} {c1 : Codec R1} {c2 : Codec R2} {cT : Codec RT} {j1 : H1 → R1} {j2 : H2 → R2} {jT : GT → RT}

theorem CRS.rep_injective (h1 : Function.Injective j1) (h2 : Function.Injective j2) (hT : Function.Injective jT) :
    Function.Injective (CRS.rep j1 j2 jT) := fun a b h => by
  obtain ⟨a0, a1, a2, a3, a4⟩ := a
  obtain ⟨b0, b1, b2, b3, b4⟩ := b
  simp only [CRS.rep, CRS.mk.injEq] at h
  rw [(com_on_injective h1).list_map h.1, (com_on_injective h2).list_map h.2.1, h1 h.2.2.1, h2 h.2.2.2.1, hT h.2.2.2.2]

theorem OneEqu.rep_injective (h1 : Function.Injective j1) (h2 : Function.Injective j2) (hT : Function.Injective jT) :
    Function.Injective (OneEqu.rep (F := F) j1 j2 jT) := fun a b h => by
  cases a <;> cases b <;> simp only [OneEqu.rep, reduceCtorEq, OneEqu.ppe.injEq, OneEqu.msmeg1.injEq, OneEqu.msmeg2.injEq, OneEqu.quad.injEq] at h
  · rename_i a b
    obtain ⟨a0, a1, a2, a3⟩ := a
    obtain ⟨b0, b1, b2, b3⟩ := b
    simp only [PPE.rep, PPE.mk.injEq] at h
    rw [h1.list_map h.1, h2.list_map h.2.1, h.2.2.1, hT h.2.2.2]
  · rename_i a b
    obtain ⟨a0, a1, a2, a3⟩ := a
    obtain ⟨b0, b1, b2, b3⟩ := b
    simp only [MSMEG1.on, MSMEG1.mk.injEq] at h
    rw [h1.list_map h.1, h.2.1, h.2.2.1, h1 h.2.2.2]
  · rename_i a b
    obtain ⟨a0, a1, a2, a3⟩ := a
    obtain ⟨b0, b1, b2, b3⟩ := b
    simp only [MSMEG2.on, MSMEG2.mk.injEq] at h
    rw [h.1, h2.list_map h.2.1, h.2.2.1, h2 h.2.2.2]
  · rw [h]

theorem CRS.elems_rep {p1 : R1 → Prop} {p2 : R2 → Prop} {pT : RT → Prop} (h1 : ∀ x, p1 (j1 x)) (h2 : ∀ x, p2 (j2 x)) (hT : ∀ x, pT (jT x))
    (crs : CRS H1 H2 GT) : (crs.rep j1 j2 jT).Elems p1 p2 pT := by
  simp only [CRS.Elems, Com.Elems, CRS.rep, Com.on, List.mem_map, forall_exists_index, and_imp, forall_apply_eq_imp_iff₂, h1, h2, hT, implies_true, and_self]

theorem PPE.elems_rep {pF : F → Prop} (hF : ∀ a, pF a) {p1 : R1 → Prop} {p2 : R2 → Prop} {pT : RT → Prop} (h1 : ∀ x, p1 (j1 x)) (h2 : ∀ x, p2 (j2 x)) (hT : ∀ x, pT (jT x))
    (equ : PPE F H1 H2 GT) : (equ.rep j1 j2 jT).Elems pF p1 p2 pT := by
  simp only [PPE.Elems, PPE.rep, List.mem_map, forall_exists_index, and_imp, forall_apply_eq_imp_iff₂, h1, h2, hT, hF, implies_true, and_self]

theorem MSMEG1.elems_rep {pF : F → Prop} (hF : ∀ a, pF a) {p1 : R1 → Prop} (h1 : ∀ x, p1 (j1 x)) (equ : MSMEG1 F H1) : (equ.on j1).Elems pF p1 := by
  simp only [MSMEG1.Elems, MSMEG1.on, List.mem_map, forall_exists_index, and_imp, forall_apply_eq_imp_iff₂, h1, hF, implies_true, and_self]

theorem MSMEG2.elems_rep {pF : F → Prop} (hF : ∀ a, pF a) {p2 : R2 → Prop} (h2 : ∀ x, p2 (j2 x)) (equ : MSMEG2 F H2) : (equ.on j2).Elems pF p2 := by
  simp only [MSMEG2.Elems, MSMEG2.on, List.mem_map, forall_exists_index, and_imp, forall_apply_eq_imp_iff₂, h2, hF, implies_true, and_self]

theorem crs_inside (h1 : Represents c1 j1) (h2 : Represents c2 j2) (hT : Represents cT jT) (m : Compress) (bs rest : Bytes) (x : CRS R1 R2 RT) :
    (CRS.codec c1 c2 cT).de m .Yes bs = .ok (x, rest) ↔
      (CRS.codec c1 c2 cT).de m .No bs = .ok (x, rest) ∧ ∃ crs : CRS H1 H2 GT, x = crs.rep j1 j2 jT := by
  rw [C109_crs h1.orderly h2.orderly hT.orderly, C109_crs h1.orderly h2.orderly hT.orderly]
  constructor
  · rintro ⟨used, rfl, hin, hv⟩
    refine ⟨⟨used, rfl, hin, by simp⟩, ?_⟩
    obtain ⟨b0, b1, b2, b3, b4, -, i0, i1, i2, i3, i4⟩ := hin
    obtain ⟨v0, v1, v2, v3, v4⟩ := hv rfl
    obtain ⟨u, hu⟩ := h1.coms i0 v0
    obtain ⟨v, hv⟩ := h2.coms i1 v1
    obtain ⟨g1, hg1⟩ := h1.of_reads i2 v2
    obtain ⟨g2, hg2⟩ := h2.of_reads i3 v3
    obtain ⟨gt, hgt⟩ := hT.of_reads i4 v4
    exact ⟨⟨u, v, g1, g2, gt⟩, by rw [CRS.rep, hu, hv, hg1, hg2, hgt]⟩
  · rintro ⟨⟨used, rfl, hin, -⟩, crs, rfl⟩
    exact ⟨used, rfl, hin, fun _ => CRS.elems_rep h1.valid h2.valid hT.valid crs⟩

theorem equ_de_ok {k : EquType} {m : Compress} {v : Validate} {bs rest : Bytes} {x : OneEqu F R1 R2 RT} :
    OneEqu.de cF c1 c2 cT k m v bs = .ok (x, rest) ↔ x.kind = k ∧ match x with
      | .ppe equ => (PPE.codec cF c1 c2 cT).de m v bs = .ok (equ, rest)
      | .msmeg1 equ => (MSMEG1.codec cF c1).de m v bs = .ok (equ, rest)
      | .msmeg2 equ => (MSMEG2.codec cF c2).de m v bs = .ok (equ, rest)
      | .quad equ => (QuadEqu.codec cF).de m v bs = .ok (equ, rest) := by
  cases x <;> cases k <;> simp [OneEqu.de, OneEqu.kind, ser_bind_ok, ser_pure]

theorem equ_inside (hF : cF.Lawful) (hFv : ∀ a, cF.Valid a) (h1 : Represents c1 j1) (h2 : Represents c2 j2) (hT : Represents cT jT) (k : EquType) (m : Compress)
    (bs rest : Bytes) (x : OneEqu F R1 R2 RT) :
    OneEqu.de cF c1 c2 cT k m .Yes bs = .ok (x, rest) ↔
      OneEqu.de cF c1 c2 cT k m .No bs = .ok (x, rest) ∧ ∃ equ : OneEqu F H1 H2 GT, x = equ.rep j1 j2 jT := by
  rw [equ_de_ok, equ_de_ok, and_assoc]
  refine and_congr_right fun _ => ?_
  cases x with
  | ppe x =>
    simp only
    rw [C109_ppe hF.orderly h1.orderly h2.orderly hT.orderly, C109_ppe hF.orderly h1.orderly h2.orderly hT.orderly]
    constructor
    · rintro ⟨used, rfl, hin, hv⟩
      refine ⟨⟨used, rfl, hin, by simp⟩, ?_⟩
      obtain ⟨b0, b1, b2, b3, -, i0, i1, i2, i3⟩ := hin
      obtain ⟨v0, v1, v2, v3⟩ := hv rfl
      obtain ⟨a, ha⟩ := h1.list i0 v0
      obtain ⟨b, hb⟩ := h2.list i1 v1
      obtain ⟨t, ht⟩ := hT.of_reads i3 v3
      exact ⟨.ppe ⟨a, b, x.gamma, t⟩, by rw [OneEqu.rep, PPE.rep, ha, hb, ht]⟩
    · rintro ⟨⟨used, rfl, hin, -⟩, equ, he⟩
      refine ⟨used, rfl, hin, fun _ => ?_⟩
      cases equ <;> simp only [OneEqu.rep, reduceCtorEq, OneEqu.ppe.injEq] at he
      rw [he]
      exact PPE.elems_rep hFv h1.valid h2.valid hT.valid _
  | msmeg1 x =>
    simp only
    rw [C109_msmeg1 hF.orderly h1.orderly, C109_msmeg1 hF.orderly h1.orderly]
    constructor
    · rintro ⟨used, rfl, hin, hv⟩
      refine ⟨⟨used, rfl, hin, by simp⟩, ?_⟩
      obtain ⟨b0, b1, b2, b3, -, i0, i1, i2, i3⟩ := hin
      obtain ⟨v0, v1, v2, v3⟩ := hv rfl
      obtain ⟨a, ha⟩ := h1.list i0 v0
      obtain ⟨t, ht⟩ := h1.of_reads i3 v3
      exact ⟨.msmeg1 ⟨a, x.b_consts, x.gamma, t⟩, by rw [OneEqu.rep, MSMEG1.on, ha, ht]⟩
    · rintro ⟨⟨used, rfl, hin, -⟩, equ, he⟩
      refine ⟨used, rfl, hin, fun _ => ?_⟩
      cases equ <;> simp only [OneEqu.rep, reduceCtorEq, OneEqu.msmeg1.injEq] at he
      rw [he]
      exact MSMEG1.elems_rep hFv h1.valid _
  | msmeg2 x =>
    simp only
    rw [C109_msmeg2 hF.orderly h2.orderly, C109_msmeg2 hF.orderly h2.orderly]
    constructor
    · rintro ⟨used, rfl, hin, hv⟩
      refine ⟨⟨used, rfl, hin, by simp⟩, ?_⟩
      obtain ⟨b0, b1, b2, b3, -, i0, i1, i2, i3⟩ := hin
      obtain ⟨v0, v1, v2, v3⟩ := hv rfl
      obtain ⟨b, hb⟩ := h2.list i1 v1
      obtain ⟨t, ht⟩ := h2.of_reads i3 v3
      exact ⟨.msmeg2 ⟨x.a_consts, b, x.gamma, t⟩, by rw [OneEqu.rep, MSMEG2.on, hb, ht]⟩
    · rintro ⟨⟨used, rfl, hin, -⟩, equ, he⟩
      refine ⟨used, rfl, hin, fun _ => ?_⟩
      cases equ <;> simp only [OneEqu.rep, reduceCtorEq, OneEqu.msmeg2.injEq] at he
      rw [he]
      exact MSMEG2.elems_rep hFv h2.valid _
  | quad x =>
    simp only
    rw [C109_quad hF.orderly, C109_quad hF.orderly]
    constructor
    · rintro ⟨used, rfl, hin, hv⟩
      exact ⟨⟨used, rfl, hin, by simp⟩, .quad x, rfl⟩
    · rintro ⟨⟨used, rfl, hin, -⟩, -⟩
      exact ⟨used, rfl, hin, fun _ => ⟨fun a _ => hFv a, fun a _ => hFv a, fun _ _ a _ => hFv a, hFv _⟩⟩

theorem CRS.round_rep (h1 : Represents c1 j1) (h2 : Represents c2 j2) (hT : Represents cT jT) (m : Compress) (v : Validate) (crs : CRS H1 H2 GT) (hf : crs.Fits)
    (rest : Bytes) : (CRS.codec c1 c2 cT).de m v ((CRS.codec c1 c2 cT).ser m (crs.rep j1 j2 jT) ++ rest) = .ok (crs.rep j1 j2 jT, rest) :=
  C109_round_crs h1.orderly h2.orderly hT.orderly m v _ (by simpa [CRS.Fits, CRS.rep, Fits64] using hf)
    (CRS.elems_rep (h1.returns m) (h2.returns m) (hT.returns m) crs) (fun _ => CRS.elems_rep h1.valid h2.valid hT.valid crs) rest

theorem OneEqu.round_rep (hF : cF.Lawful) (hFv : ∀ a, cF.Valid a) (h1 : Represents c1 j1) (h2 : Represents c2 j2) (hT : Represents cT jT) (m : Compress) (v : Validate)
    (equ : OneEqu F H1 H2 GT) (hf : equ.Fits) (rest : Bytes) :
    OneEqu.de cF c1 c2 cT equ.kind m v ((equ.rep j1 j2 jT).ser cF c1 c2 cT m ++ rest) = .ok (equ.rep j1 j2 jT, rest) := by
  have hFr : ∀ a, cF.Returns m a := fun a rest => hF.round m .No a rest (by simp)
  refine equ_de_ok.mpr ⟨by cases equ <;> rfl, ?_⟩
  cases equ with
  | ppe equ =>
    exact C109_round_ppe hF.orderly h1.orderly h2.orderly hT.orderly m v (equ.rep j1 j2 jT) (by simpa [OneEqu.Fits, PPE.Fits, PPE.rep, Fits64] using hf)
      (PPE.elems_rep hFr (h1.returns m) (h2.returns m) (hT.returns m) equ) (fun _ => PPE.elems_rep hFv h1.valid h2.valid hT.valid equ) rest
  | msmeg1 equ =>
    exact C109_round_msmeg1 hF.orderly h1.orderly m v (equ.on j1) (by simpa [OneEqu.Fits, MSMEG1.Fits, MSMEG1.on, Fits64] using hf)
      (MSMEG1.elems_rep hFr (h1.returns m) equ) (fun _ => MSMEG1.elems_rep hFv h1.valid equ) rest
  | msmeg2 equ =>
    exact C109_round_msmeg2 hF.orderly h2.orderly m v (equ.on j2) (by simpa [OneEqu.Fits, MSMEG2.Fits, MSMEG2.on, Fits64] using hf)
      (MSMEG2.elems_rep hFr (h2.returns m) equ) (fun _ => MSMEG2.elems_rep hFv h2.valid equ) rest
  | quad equ =>
    exact C109_round_quad hF.orderly m v equ hf ⟨fun a _ => hFr a, fun a _ => hFr a, fun _ _ a _ => hFr a, hFr _⟩
      (fun _ => ⟨fun a _ => hFv a, fun a _ => hFv a, fun _ _ a _ => hFv a, hFv _⟩) rest

theorem GeneratedCrs.fits [AddCommGroup H1] [Module F H1] [AddCommGroup H2] [Module F H2] [AddCommGroup GT] [Module F GT] {e : H1 →ₗ[F] H2 →ₗ[F] GT} {crs : CRS H1 H2 GT}
    (h : GeneratedCrs e crs) : crs.Fits := by
  obtain ⟨ρ, _, rng, rfl⟩ := h
  constructor <;> exact show (2 : Nat) < 2 ^ 64 by norm_num

theorem equ_fits (m n : Nat) (hm : m < 2 ^ 64) (hn : n < 2 ^ 64) :
    (∀ equ : PPE F H1 H2 GT, equ.Dims m n → equ.Fits) ∧ (∀ equ : MSMEG1 F H1, equ.Dims m n → equ.Fits) ∧ (∀ equ : MSMEG2 F H2, equ.Dims m n → equ.Fits) ∧
    (∀ equ : QuadEqu F, equ.Dims m n → equ.Fits) := by
  refine ⟨?_, ?_, ?_, ?_⟩ <;>
  · rintro ⟨a, b, g, t⟩ ⟨h1, h2, h3, h4⟩
    simp only at h1 h2 h3 h4
    refine ⟨?_, ?_, ?_, fun r hr => ?_⟩
    · rw [Fits64, h1]; assumption
    · rw [Fits64, h2]; assumption
    · rw [Fits64, h3]; assumption
    · rw [Fits64, h4 r hr]; assumption

theorem receiveAll_ok {α : Type} {k : EquType} {m : Compress} {v : Validate} {bsC bsE bsP : Bytes} {verify : CRS R1 R2 RT → OneEqu F R1 R2 RT → CProof F R1 R2 → α}
    {b : α} : receiveAll cF c1 c2 cT k m v bsC bsE bsP verify = .ok b ↔
      ∃ crs rC equ rE cp rP, (CRS.codec c1 c2 cT).de m v bsC = .ok (crs, rC) ∧ OneEqu.de cF c1 c2 cT k m v bsE = .ok (equ, rE) ∧
        (CProof.codec cF c1 c2).de m v bsP = .ok (cp, rP) ∧ verify crs equ cp = b := by
  simp only [receiveAll, ser_bind_ok, Prod.exists, ser_pure, Except.ok.injEq]
  constructor
  · rintro ⟨crs, rC, h1, equ, rE, h2, cp, rP, h3, h4⟩
    exact ⟨crs, rC, equ, rE, cp, rP, h1, h2, h3, h4⟩
  · rintro ⟨crs, rC, equ, rE, cp, rP, h1, h2, h3, h4⟩
    exact ⟨crs, rC, h1, equ, rE, h2, cp, rP, h3, h4⟩

/-! ### Reading and checking -/

/-- Reading with validation with `d` is doing so with `c` and then checking. -/
def Strictly {α : Type} (d c : Codec α) : Prop :=
  (∀ m v bs x rest, d.de m v bs = .ok (x, rest) ↔ c.de m v bs = .ok (x, rest) ∧ (v = .Yes → c.check x = .ok ()))

theorem strictly_self {α : Type} {c : Codec α} (h : ∀ m bs x rest, c.de m .Yes bs = .ok (x, rest) → c.check x = .ok ()) : Strictly c c :=
  fun m v bs x rest => ⟨fun hd => ⟨hd, by rintro rfl; exact h m bs x rest hd⟩, And.left⟩

theorem strictly_prod {α β : Type} {d c : Codec α} {d' c' : Codec β} (h : Strictly d c) (h' : Strictly d' c') : Strictly (prodCodec d d') (prodCodec c c') := by
  rintro m v bs ⟨x, y⟩ rest
  simp only [prodCodec, ser_bind_ok, Prod.exists, ser_pure, Except.ok.injEq, Prod.mk.injEq]
  constructor
  · rintro ⟨a, b1, h1, b, b2, h2, ⟨rfl, rfl⟩, rfl⟩
    obtain ⟨k1, k2⟩ := (h m v _ _ _).mp h1
    obtain ⟨k3, k4⟩ := (h' m v _ _ _).mp h2
    exact ⟨⟨a, b1, k1, b, b2, k3, ⟨rfl, rfl⟩, rfl⟩, fun hv => ⟨_, k2 hv, k4 hv⟩⟩
  · rintro ⟨⟨a, b1, h1, b, b2, h2, ⟨rfl, rfl⟩, rfl⟩, h3⟩
    exact ⟨a, b1, (h m v _ _ _).mpr ⟨h1, fun hv => (h3 hv).choose_spec.1⟩, b, b2, (h' m v _ _ _).mpr ⟨h2, fun hv => (h3 hv).choose_spec.2⟩, ⟨rfl, rfl⟩, rfl⟩

theorem strictly_struct {α β : Type} {mk : α → β} {fields : β → α} (hf : ∀ a, fields (mk a) = a) {d c : Codec α} (h : Strictly d c) :
    Strictly (structCodec mk fields d) (structCodec mk fields c) := by
  intro m v bs x rest
  simp only [structCodec, ser_bind_ok, Prod.exists, ser_pure, Except.ok.injEq, Prod.mk.injEq]
  constructor
  · rintro ⟨a, b, h1, rfl, rfl⟩
    obtain ⟨k1, k2⟩ := (h m v _ _ _).mp h1
    exact ⟨⟨a, b, k1, rfl, rfl⟩, by rwa [hf]⟩
  · rintro ⟨⟨a, b, h1, rfl, rfl⟩, h2⟩
    rw [hf] at h2
    exact ⟨a, b, (h m v _ _ _).mpr ⟨h1, h2⟩, rfl, rfl⟩

theorem strictly_vec {α : Type} (c : Codec α) : Strictly (vecCodec c) (vecCodec c) := strictly_self fun m bs x rest hd => by
  simp only [vecCodec, ser_bind_ok, Prod.exists, ser_pure, Except.ok.injEq, Prod.mk.injEq] at hd ⊢
  obtain ⟨n, b, h1, l, b', h2, u, h3, rfl, rfl⟩ := hd
  exact h3

theorem strictly_orderly {α : Type} {c : Codec α} (h : c.Orderly) : Strictly c c := strictly_self fun m bs x rest hd => ((h.validate m bs x rest).mp hd).2

section
variable {B B' : Type} [Field B] [DecidableEq B] [Field B'] [DecidableEq B'] {E : SWCurve B} {E' : SWCurve B'} {c : BeField B} {c' : BeField B'}

theorem strictly_bls (hE : E.Lawful) (hc : c.Lawful) : Strictly (E.blsCodec c).strict (E.blsCodec c) := by
  intro m v bs P rest
  cases v with
  | No => exact ⟨fun h => ⟨h, by simp⟩, And.left⟩
  | Yes =>
    cases m with
    | Yes =>
      rw [C114_compressed_strict hE hc .Yes]
      exact ⟨fun h => ⟨h, (strict_de.mp h).2⟩, And.left⟩
    | No =>
      rw [strict_de, C114_uncompressed hE hc, C114_uncompressed hE hc]
      simp only [reduceCtorEq, false_implies, true_and, forall_const]
      refine and_congr_left fun hv => or_congr_right ?_
      exact ⟨fun h => ⟨h.1, ((bls_valid P).mp hv).2, h.2⟩, fun h => ⟨h.1, h.2.2⟩⟩

theorem strictly_crs (hE : E.Lawful) (hc : c.Lawful) (hE' : E'.Lawful) (hc' : c'.Lawful) {cT : Codec RT} (hT : cT.Orderly) :
    Strictly (CRS.codec (E.blsCodec c).strict (E'.blsCodec c').strict cT) (CRS.codec (E.blsCodec c) (E'.blsCodec c') cT) := by
  simp only [CRS.codec, vec_com_strict]
  exact strictly_struct (fun _ => rfl) (strictly_prod (strictly_vec _) (strictly_prod (strictly_vec _)
    (strictly_prod (strictly_bls hE hc) (strictly_prod (strictly_bls hE' hc') (strictly_orderly hT)))))

theorem strictly_msmeg1 (hE : E.Lawful) (hc : c.Lawful) : Strictly (MSMEG1.codec cF (E.blsCodec c).strict) (MSMEG1.codec cF (E.blsCodec c)) := by
  simp only [MSMEG1.codec, vec_strict]
  exact strictly_struct (fun _ => rfl) (strictly_prod (strictly_vec _) (strictly_prod (strictly_vec _)
    (strictly_prod (strictly_vec _) (strictly_bls hE hc))))

theorem strictly_msmeg2 (hE : E.Lawful) (hc : c.Lawful) : Strictly (MSMEG2.codec cF (E.blsCodec c).strict) (MSMEG2.codec cF (E.blsCodec c)) := by
  simp only [MSMEG2.codec, vec_strict]
  exact strictly_struct (fun _ => rfl) (strictly_prod (strictly_vec _) (strictly_prod (strictly_vec _)
    (strictly_prod (strictly_vec _) (strictly_bls hE hc))))

theorem strictly_equ (hE : E.Lawful) (hc : c.Lawful) (hE' : E'.Lawful) (hc' : c'.Lawful) (hF : cF.Orderly) {cT : Codec RT} (hT : cT.Orderly) (k : EquType)
    (m : Compress) (v : Validate) (bs rest : Bytes) (x : OneEqu F (Affine B) (Affine B') RT) :
    OneEqu.de cF (E.blsCodec c).strict (E'.blsCodec c').strict cT k m v bs = .ok (x, rest) ↔
      OneEqu.de cF (E.blsCodec c) (E'.blsCodec c') cT k m v bs = .ok (x, rest) ∧ (v = .Yes → x.Valid cF (E.blsCodec c) (E'.blsCodec c') cT) := by
  rw [equ_de_ok, equ_de_ok, and_assoc]
  refine and_congr_right fun _ => ?_
  cases x with
  | ppe x =>
    simp only [PPE.codec, vec_strict]
    exact strictly_struct (fun _ => rfl) (strictly_prod (strictly_vec _) (strictly_prod (strictly_vec _) (strictly_prod (strictly_vec _) (strictly_orderly hT)))) m v bs x rest
  | msmeg1 x => exact strictly_msmeg1 hE hc m v bs x rest
  | msmeg2 x => exact strictly_msmeg2 hE' hc' m v bs x rest
  | quad x =>
    exact strictly_struct (fun _ => rfl) (strictly_prod (strictly_vec _) (strictly_prod (strictly_vec _) (strictly_prod (strictly_vec _) (strictly_orderly hF)))) m v bs x rest

theorem receiveAll_strict (hE : E.Lawful) (hc : c.Lawful) (hE' : E'.Lawful) (hc' : c'.Lawful) (hF : cF.Orderly) {cT : Codec RT} (hT : cT.Orderly) {k : EquType}
    {m : Compress} {v : Validate} {bsC bsE bsP : Bytes} {verify : CRS (Affine B) (Affine B') RT → OneEqu F (Affine B) (Affine B') RT → CProof F (Affine B) (Affine B') → Res Bool}
    {b : Res Bool} : receiveAll cF (E.blsCodec c).strict (E'.blsCodec c').strict cT k m v bsC bsE bsP verify = .ok b ↔
      receiveAll cF (E.blsCodec c) (E'.blsCodec c') cT k m v bsC bsE bsP verify = .ok b ∧
      (v = .Yes → (∀ x rest, (CRS.codec (E.blsCodec c) (E'.blsCodec c') cT).de m v bsC = .ok (x, rest) → (CRS.codec (E.blsCodec c) (E'.blsCodec c') cT).Valid x) ∧
        ∀ x rest, OneEqu.de cF (E.blsCodec c) (E'.blsCodec c') cT k m v bsE = .ok (x, rest) → x.Valid cF (E.blsCodec c) (E'.blsCodec c') cT) := by
  rw [receiveAll_ok, receiveAll_ok, ← message_strict]
  constructor
  · rintro ⟨crs, rC, equ, rE, cp, rP, dC, dE, dP, hw⟩
    obtain ⟨dC', vC⟩ := (strictly_crs hE hc hE' hc' hT m v bsC crs rC).mp dC
    obtain ⟨dE', vE⟩ := (strictly_equ hE hc hE' hc' hF hT k m v bsE rE equ).mp dE
    refine ⟨⟨crs, rC, equ, rE, cp, rP, dC', dE', dP, hw⟩, fun hv => ⟨fun x rest hx => ?_, fun x rest hx => ?_⟩⟩
    · rw [dC'] at hx
      obtain ⟨rfl, rfl⟩ := Prod.mk.inj (Except.ok.inj hx)
      exact vC hv
    · rw [dE'] at hx
      obtain ⟨rfl, rfl⟩ := Prod.mk.inj (Except.ok.inj hx)
      exact vE hv
  · rintro ⟨⟨crs, rC, equ, rE, cp, rP, dC, dE, dP, hw⟩, hv⟩
    exact ⟨crs, rC, equ, rE, cp, rP, (strictly_crs hE hc hE' hc' hT m v bsC crs rC).mpr ⟨dC, fun h => (hv h).1 _ _ dC⟩,
      (strictly_equ hE hc hE' hc' hF hT k m v bsE rE equ).mpr ⟨dE, fun h => (hv h).2 _ _ dE⟩, dP, hw⟩

/-- In compressed form nothing is read that does not pass `check`, nor pairing product and quadratic equations in any form. -/
theorem crs_compressed (hE : E.Lawful) (hc : c.Lawful) (hE' : E'.Lawful) (hc' : c'.Lawful) {cT : Codec RT} (hT : cT.Orderly) (bs rest : Bytes)
    (x : CRS (Affine B) (Affine B') RT) (h : (CRS.codec (E.blsCodec c) (E'.blsCodec c') cT).de .Yes .Yes bs = .ok (x, rest)) :
    (CRS.codec (E.blsCodec c) (E'.blsCodec c') cT).Valid x := by
  rw [(C114_compressed_composite hE hc hE' hc' cT cT .Yes bs).1] at h
  exact ((strictly_crs hE hc hE' hc' hT _ _ _ _ _).mp h).2 rfl

@[inherit_doc crs_compressed]
theorem equ_compressed (hE : E.Lawful) (hc : c.Lawful) (hE' : E'.Lawful) (hc' : c'.Lawful) (hF : cF.Orderly) {cT : Codec RT} (hT : cT.Orderly) (k : EquType) (m : Compress)
    (hm : m = .Yes ∨ k = .PairingProduct ∨ k = .Quadratic) (bs rest : Bytes) (x : OneEqu F (Affine B) (Affine B') RT)
    (h : OneEqu.de cF (E.blsCodec c) (E'.blsCodec c') cT k m .Yes bs = .ok (x, rest)) : x.Valid cF (E.blsCodec c) (E'.blsCodec c') cT := by
  refine ((strictly_equ hE hc hE' hc' hF hT k m .Yes bs rest x).mp ?_).2 rfl
  have hk := (equ_de_ok.mp h).1
  refine equ_de_ok.mpr ⟨hk, ?_⟩
  have h' := (equ_de_ok.mp h).2
  cases x with
  | ppe x => rw [(C114_vectors cF cT).2.2] at h'; exact h'
  | msmeg1 x =>
    obtain rfl := hm.resolve_right (by rw [← hk]; simp [OneEqu.kind])
    rw [(C114_compressed_composite hE hc hE' hc' cF cT .Yes bs).2.1] at h'
    exact h'
  | msmeg2 x =>
    obtain rfl := hm.resolve_right (by rw [← hk]; simp [OneEqu.kind])
    rw [(C114_compressed_composite hE hc hE' hc' cF cT .Yes bs).2.2] at h'
    exact h'
  | quad x => exact h'

end

end GS
