import Verif.Spec.CodecMaps

/-! # Derived formats of two types, one of which stands for the other -/

namespace GS
variable {α β α' β' γ γ' F G H G1 G2 GT H1 H2 HT : Type}

theorem loopCheck_map {f : α → β} {check : α → Except SerErr Unit} {check' : β → Except SerErr Unit} (h : ∀ a, check' (f a) = check a) (l : List α) :
    loopCheck check' (l.map f) = loopCheck check l := by
  induction l with
  | nil => rfl
  | cons a l ih => simp only [List.map_cons, loopCheck, h, ih]

namespace Codec.Maps

theorem refl (c : Codec α) : Maps id c c where
  ser _ _ := rfl
  size _ _ := rfl
  de m v bs := by cases c.de m v bs <;> rfl
  check _ := rfl
  batch l := by rw [List.map_id]

theorem vec {f : α → β} {c : Codec α} {d : Codec β} (h : Maps f c d) : Maps (List.map f) (vecCodec c) (vecCodec d) where
  ser m l := by
    simp only [vecCodec, List.length_map, List.map_map]
    congr 2
    exact List.map_congr_left fun a _ => h.ser m a
  size m l := by
    simp only [vecCodec, List.map_map]
    congr 2
    exact List.map_congr_left fun a _ => h.size m a
  de m v bs := by
    have hl : ∀ n bs, deLoop d m n bs = (deLoop c m n bs).map (Prod.map (List.map f) id) := by
      intro n
      induction n with
      | zero => intro bs; rfl
      | succ n ih =>
        intro bs
        simp only [deLoop, h.de]
        cases c.de m .No bs with
        | error e => rfl
        | ok x =>
          simp only [Except.map, bind, Except.bind, Prod.map, id, ih]
          cases deLoop c m n x.2 <;> rfl
    simp only [vecCodec]
    cases u64Codec.de m v bs with
    | error e => rfl
    | ok x =>
      simp only [bind, Except.bind, hl]
      cases deLoop c m x.1 x.2 with
      | error e => rfl
      | ok y =>
        cases v with
        | No => rfl
        | Yes =>
          simp only [Except.map, Prod.map, h.batch]
          cases c.batchCheck y.1 <;> rfl
  check l := h.batch l
  batch l := by simp only [vecCodec]; rw [← List.map_flatten, h.batch]

theorem prod {f : α → β} {f' : α' → β'} {c : Codec α} {d : Codec β} {c' : Codec α'} {d' : Codec β'} (h : Maps f c d) (h' : Maps f' c' d') :
    Maps (Prod.map f f') (prodCodec c c') (prodCodec d d') where
  ser m p := by simp only [prodCodec, Prod.map, h.ser, h'.ser]
  size m p := by simp only [prodCodec, Prod.map, h.size, h'.size]
  de m v bs := by
    simp only [prodCodec, h.de]
    cases c.de m v bs with
    | error e => rfl
    | ok x =>
      simp only [Except.map, bind, Except.bind, Prod.map, id, h'.de]
      cases c'.de m v x.2 <;> rfl
  check p := by simp only [prodCodec, Prod.map, h.check, h'.check]
  batch l := by
    have e1 : (l.map (Prod.map f f')).map (·.1) = (l.map (·.1)).map f := by simp only [List.map_map]; rfl
    have e2 : (l.map (Prod.map f f')).map (·.2) = (l.map (·.2)).map f' := by simp only [List.map_map]; rfl
    simp only [prodCodec, e1, e2, h.batch, h'.batch]

theorem struct {f : α → β} {g : γ → γ'} {c : Codec α} {d : Codec β} (h : Maps f c d) {mk : α → γ} {fields : γ → α} {mk' : β → γ'} {fields' : γ' → β}
    (hm : ∀ a, mk' (f a) = g (mk a)) (hf : ∀ b, fields' (g b) = f (fields b)) : Maps g (structCodec mk fields c) (structCodec mk' fields' d) where
  ser m b := by simp only [structCodec, hf, h.ser]
  size m b := by simp only [structCodec, hf, h.size]
  de m v bs := by
    simp only [structCodec, h.de]
    cases c.de m v bs with
    | error e => rfl
    | ok x => simp only [Except.map, bind, Except.bind, Prod.map, id, hm]; rfl
  check b := by simp only [structCodec, hf, h.check]
  batch l := by
    have e : (l.map g).map fields' = (l.map fields).map f := by simp only [List.map_map]; exact List.map_congr_left fun a _ => hf a
    simp only [structCodec, e, h.batch]

/-- Scalars are the same on both sides. -/
theorem same {f : α → α} (hf : f = id) (c : Codec α) : Maps f c c := hf ▸ refl c

theorem com {f : G → H} {c : Codec G} {d : Codec H} (h : Maps f c d) : Maps (Com.on f) (Com.codec c) (Com.codec d) :=
  (h.prod h).struct (fun _ => rfl) (fun _ => rfl)

theorem commit {f : G → H} {c : Codec G} {d : Codec H} (h : Maps f c d) (cF : Codec F) : Maps (Commit.on f) (Commit.codec cF c) (Commit.codec cF d) :=
  (h.com.vec.prod (refl (vecCodec (vecCodec cF)))).struct (fun _ => rfl) (fun _ => rfl)

variable {f1 : G1 → H1} {f2 : G2 → H2} {fT : GT → HT} {c1 : Codec G1} {c2 : Codec G2} {cT : Codec GT} {d1 : Codec H1} {d2 : Codec H2} {dT : Codec HT}

theorem crs (h1 : Maps f1 c1 d1) (h2 : Maps f2 c2 d2) (hT : Maps fT cT dT) : Maps (CRS.rep f1 f2 fT) (CRS.codec c1 c2 cT) (CRS.codec d1 d2 dT) :=
  (h1.com.vec.prod (h2.com.vec.prod (h1.prod (h2.prod hT)))).struct (fun _ => rfl) (fun _ => rfl)

theorem proof (h1 : Maps f1 c1 d1) (h2 : Maps f2 c2 d2) (cF : Codec F) : Maps (EquProof.on f1 f2) (EquProof.codec cF c1 c2) (EquProof.codec cF d1 d2) :=
  (h2.com.vec.prod (h1.com.vec.prod ((refl EquType.codec).prod (refl (vecCodec (vecCodec cF)))))).struct (fun _ => rfl) (fun _ => rfl)

theorem message (h1 : Maps f1 c1 d1) (h2 : Maps f2 c2 d2) (cF : Codec F) : Maps (CProof.on f1 f2) (CProof.codec cF c1 c2) (CProof.codec cF d1 d2) :=
  ((h1.commit cF).prod ((h2.commit cF).prod (h1.proof h2 cF).vec)).struct (fun _ => rfl) (fun _ => rfl)

theorem ppe (h1 : Maps f1 c1 d1) (h2 : Maps f2 c2 d2) (hT : Maps fT cT dT) (cF : Codec F) : Maps (PPE.rep f1 f2 fT) (PPE.codec cF c1 c2 cT) (PPE.codec cF d1 d2 dT) :=
  (h1.vec.prod (h2.vec.prod ((refl (vecCodec (vecCodec cF))).prod hT))).struct (fun _ => rfl) (fun _ => rfl)

theorem msmeg1 (h1 : Maps f1 c1 d1) (cF : Codec F) : Maps (MSMEG1.on f1) (MSMEG1.codec cF c1) (MSMEG1.codec cF d1) :=
  (h1.vec.prod ((refl (vecCodec cF)).prod ((refl (vecCodec (vecCodec cF))).prod h1))).struct (fun _ => rfl) (fun _ => rfl)

theorem msmeg2 (h2 : Maps f2 c2 d2) (cF : Codec F) : Maps (MSMEG2.on f2) (MSMEG2.codec cF c2) (MSMEG2.codec cF d2) :=
  ((refl (vecCodec cF)).prod (h2.vec.prod ((refl (vecCodec (vecCodec cF))).prod h2))).struct (fun _ => rfl) (fun _ => rfl)

theorem equation (h1 : Maps f1 c1 d1) (h2 : Maps f2 c2 d2) (hT : Maps fT cT dT) (cF : Codec F) (k : EquType) (m : Compress) (v : Validate) (bs : Bytes) :
    OneEqu.de cF d1 d2 dT k m v bs = (OneEqu.de cF c1 c2 cT k m v bs).map (Prod.map (OneEqu.rep f1 f2 fT) id) := by
  cases k with
  | PairingProduct =>
    simp only [OneEqu.de, (ppe h1 h2 hT cF).de]
    cases (PPE.codec cF c1 c2 cT).de m v bs <;> rfl
  | MultiScalarG1 =>
    simp only [OneEqu.de, (msmeg1 h1 cF).de]
    cases (MSMEG1.codec cF c1).de m v bs <;> rfl
  | MultiScalarG2 =>
    simp only [OneEqu.de, (msmeg2 h2 cF).de]
    cases (MSMEG2.codec cF c2).de m v bs <;> rfl
  | Quadratic =>
    simp only [OneEqu.de]
    cases (QuadEqu.codec cF).de m v bs <;> rfl

theorem equation_ser (h1 : Maps f1 c1 d1) (h2 : Maps f2 c2 d2) (hT : Maps fT cT dT) (cF : Codec F) (m : Compress) (equ : OneEqu F G1 G2 GT) :
    (equ.rep f1 f2 fT).ser cF d1 d2 dT m = equ.ser cF c1 c2 cT m := by
  cases equ with
  | ppe q => exact (ppe h1 h2 hT cF).ser m q
  | msmeg1 q => exact (msmeg1 h1 cF).ser m q
  | msmeg2 q => exact (msmeg2 h2 cF).ser m q
  | quad q => rfl

/-- A verifier that reads with `d1`, `d2` and `dT` does what one does that reads with `c1`, `c2` and `cT` and converts. -/
theorem receiveAll {α : Type} (h1 : Maps f1 c1 d1) (h2 : Maps f2 c2 d2) (hT : Maps fT cT dT) (cF : Codec F) (k : EquType) (m : Compress) (v : Validate) (bsC bsE bsP : Bytes)
    (verify : CRS H1 H2 HT → OneEqu F H1 H2 HT → CProof F H1 H2 → α) :
    GS.receiveAll cF d1 d2 dT k m v bsC bsE bsP verify =
      GS.receiveAll cF c1 c2 cT k m v bsC bsE bsP fun crs equ cp => verify (crs.rep f1 f2 fT) (equ.rep f1 f2 fT) (cp.on f1 f2) := by
  simp only [GS.receiveAll, (crs h1 h2 hT).de, equation h1 h2 hT cF, (message h1 h2 cF).de]
  cases (CRS.codec c1 c2 cT).de m v bsC with
  | error e => rfl
  | ok x =>
    simp only [Except.map, bind, Except.bind]
    cases OneEqu.de cF c1 c2 cT k m v bsE with
    | error e => rfl
    | ok y =>
      simp only
      cases (CProof.codec cF c1 c2).de m v bsP <;> rfl

/-- `PairingOutput`. -/
theorem output {f : α → β} {c : Codec α} {d : Codec β} (h : Maps f c d) {t : α → Bool} {t' : β → Bool} (ht : ∀ a, t' (f a) = t a) :
    Maps f (outputCodec c t) (outputCodec d t') where
  ser := h.ser
  size := h.size
  de m v bs := by
    simp only [outputCodec, h.de]
    cases c.de m .No bs with
    | error e => rfl
    | ok x =>
      cases v with
      | No => rfl
      | Yes =>
        simp only [Except.map, bind, Except.bind, Prod.map, outputCheck, ht]
        cases t x.1 <;> rfl
  check a := by simp only [outputCodec, outputCheck, ht]
  batch l := loopCheck_map (fun a => by simp only [outputCheck, ht]) l

end Codec.Maps
end GS
