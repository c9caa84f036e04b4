import Verif.Spec.Sizes
import Verif.Props.Domains
import Verif.Props.Element
import Verif.Props.Keys
import Verif.Props.Message

/-!
# C111: how many bytes commitments and proofs take

The numbers depend on nothing but the kind of the equation and the numbers of variables.
-/

namespace GS
variable {F G1 G2 GT B C : Type}

section length
variable {cF : Codec F} {c1 : Codec G1} {c2 : Codec G2} {cT : Codec GT} {m : Compress} {kF k1 k2 kT : Nat}

theorem vec_takes {α : Type} {c : Codec α} {k : Nat} (l : List α) (h : ∀ a ∈ l, (c.ser m a).length = k) :
    ((vecCodec c).ser m l).length = 8 + l.length * k := by
  have e : l.map (fun a => (c.ser m a).length) = List.replicate l.length k := by
    rw [List.eq_replicate_iff]; simpa using h
  simp [vecCodec, u64Codec, length_leBytes, List.length_flatten, Function.comp_def, e]

theorem mat_takes {a b : Nat} {M : Matrix F} (h : cF.Takes m kF) (hM : Rect a b M) :
    ((vecCodec (vecCodec cF)).ser m M).length = 8 + a * (8 + b * kF) := by
  rw [vec_takes (k := 8 + b * kF), hM.1]
  intro r hr
  rw [vec_takes r fun x _ => h x, hM.2 r hr]

theorem com_takes {G : Type} {c : Codec G} {k : Nat} (h : c.Takes m k) : (Com.codec c).Takes m (2 * k) := by
  intro x
  have : (Com.codec c).ser m x = c.ser m x.c0 ++ c.ser m x.c1 := rfl
  rw [this, List.length_append, h, h]; omega

theorem commit_takes {G : Type} {c : Codec G} {k a n : Nat} (hF : cF.Takes m kF) (h : c.Takes m k) {x : Commit F G}
    (hx : x.coms.length = n ∧ Rect n a x.rand) :
    ((Commit.codec cF c).ser m x).length = 16 + n * (2 * k + 8 + a * kF) := by
  have : (Commit.codec cF c).ser m x = (vecCodec (Com.codec c)).ser m x.coms ++ (vecCodec (vecCodec cF)).ser m x.rand := rfl
  rw [this, List.length_append, vec_takes (k := 2 * k) _ fun a _ => com_takes h a, mat_takes hF hx.2, hx.1]
  ring

theorem proof_takes {p q a b : Nat} (hF : cF.Takes m kF) (h1 : c1.Takes m k1) (h2 : c2.Takes m k2) {x : EquProof F G1 G2}
    (hp : x.pi.length = p) (hq : x.theta.length = q) (hr : Rect a b x.rand) :
    ((EquProof.codec cF c1 c2).ser m x).length = 25 + p * (2 * k2) + q * (2 * k1) + a * (8 + b * kF) := by
  have : (EquProof.codec cF c1 c2).ser m x = (vecCodec (Com.codec c2)).ser m x.pi ++ ((vecCodec (Com.codec c1)).ser m x.theta ++
    (EquType.codec.ser m x.equ_type ++ (vecCodec (vecCodec cF)).ser m x.rand)) := rfl
  rw [this]
  simp only [List.length_append]
  rw [vec_takes (k := 2 * k2) _ fun a _ => com_takes h2 a, vec_takes (k := 2 * k1) _ fun a _ => com_takes h1 a, mat_takes hF hr, hp, hq]
  have : (EquType.codec.ser m x.equ_type).length = 1 := by
    cases x.equ_type <;> rfl
  rw [this]; omega

end length

variable [Field F] [AddCommGroup G1] [Module F G1] [AddCommGroup G2] [Module F G2] [AddCommGroup GT] [Module F GT] {ρ : Type} [Rng ρ F G1 G2]
  (sch : Nat → Scheduler) (crs : CRS G1 G2 GT) (rng rng' : ρ) (xc : Commit F G1) (yc : Commit F G2) (pf : EquProof F G1 G2)
  {cF : Codec F} {c1 : Codec G1} {c2 : Codec G2} {cT : Codec GT} {m : Compress} {kF k1 k2 kT : Nat}

omit [AddCommGroup GT] [Module F GT] in
/-- C38: the shape of the randomness recorded in proofs. -/
theorem C38_rand :
    (∀ (equ : PPE F G1 G2 GT) x y, equ.prove sch x y xc yc crs rng = .ok (pf, rng') → Rect 2 2 pf.rand) ∧
    (∀ (equ : MSMEG1 F G1) x y, equ.prove sch x y xc yc crs rng = .ok (pf, rng') → Rect 1 2 pf.rand) ∧
    (∀ (equ : MSMEG2 F G2) x y, equ.prove sch x y xc yc crs rng = .ok (pf, rng') → Rect 2 1 pf.rand) ∧
    (∀ (equ : QuadEqu F) x y, equ.prove sch x y xc yc crs rng = .ok (pf, rng') → Rect 1 1 pf.rand) := by
  refine ⟨?_, ?_, ?_, ?_⟩ <;> intro equ x y h
  · rw [PPE.prove_eq] at h
    rw [(proveCore_rand h).2.1]; simp [Rect]
  · rw [MSMEG1.prove_eq] at h
    rw [(proveCore_rand h).2.1]; simp [Rect]
  · rw [MSMEG2.prove_eq] at h
    rw [(proveCore_rand h).2.1]; simp [Rect]
  · rw [QuadEqu.prove_eq] at h
    rw [(proveCore_rand h).2.1]; simp [Rect]

/-- C111: the length of serialized commitments. -/
theorem C111_commit (hF : cF.Takes m kF) (h1 : c1.Takes m k1) (h2 : c2.Takes m k2) :
    (∀ x : List G1, batchCommitG1 x crs rng = .ok (xc, rng') →
      ((Commit.codec cF c1).ser m xc).length = 16 + x.length * (2 * k1 + 8 + 2 * kF)) ∧
    (∀ y : List G2, batchCommitG2 y crs rng = .ok (yc, rng') →
      ((Commit.codec cF c2).ser m yc).length = 16 + y.length * (2 * k2 + 8 + 2 * kF)) ∧
    (∀ x : List F, batchCommitScalarToB1 x crs rng = .ok (xc, rng') →
      ((Commit.codec cF c1).ser m xc).length = 16 + x.length * (2 * k1 + 8 + kF)) ∧
    (∀ y : List F, batchCommitScalarToB2 y crs rng = .ok (yc, rng') →
      ((Commit.codec cF c2).ser m yc).length = 16 + y.length * (2 * k2 + 8 + kF)) ∧
    (∀ x : G1, commitG1 x crs rng = .ok (xc, rng') → ((Commit.codec cF c1).ser m xc).length = 24 + 2 * k1 + 2 * kF) ∧
    (∀ y : G2, commitG2 y crs rng = .ok (yc, rng') → ((Commit.codec cF c2).ser m yc).length = 24 + 2 * k2 + 2 * kF) ∧
    (∀ x : F, commitScalarToB1 x crs rng = .ok (xc, rng') → ((Commit.codec cF c1).ser m xc).length = 24 + 2 * k1 + kF) ∧
    (∀ y : F, commitScalarToB2 y crs rng = .ok (yc, rng') → ((Commit.codec cF c2).ser m yc).length = 24 + 2 * k2 + kF) := by
  obtain ⟨s1, s2, s3, s4, s5, s6, s7, s8⟩ := C38_commitments crs rng rng' xc yc
  refine ⟨?_, ?_, ?_, ?_, ?_, ?_, ?_, ?_⟩ <;> intro x h
  · exact commit_takes hF h1 (s1 x h)
  · exact commit_takes hF h2 (s2 x h)
  · rw [commit_takes hF h1 (s3 x h)]; simp
  · rw [commit_takes hF h2 (s4 x h)]; simp
  · rw [commit_takes hF h1 (s5 x h)]; omega
  · rw [commit_takes hF h2 (s6 x h)]; omega
  · rw [commit_takes hF h1 (s7 x h)]; omega
  · rw [commit_takes hF h2 (s8 x h)]; omega

/-- C111: the length of serialized proofs does not depend on the number of variables. -/
theorem C111_proof (hF : cF.Takes m kF) (h1 : c1.Takes m k1) (h2 : c2.Takes m k2) :
    (∀ (equ : PPE F G1 G2 GT) x y, equ.prove sch x y xc yc crs rng = .ok (pf, rng') →
      ((EquProof.codec cF c1 c2).ser m pf).length = 41 + 4 * k1 + 4 * k2 + 4 * kF) ∧
    (∀ (equ : MSMEG1 F G1) x y, equ.prove sch x y xc yc crs rng = .ok (pf, rng') →
      ((EquProof.codec cF c1 c2).ser m pf).length = 33 + 2 * k1 + 4 * k2 + 2 * kF) ∧
    (∀ (equ : MSMEG2 F G2) x y, equ.prove sch x y xc yc crs rng = .ok (pf, rng') →
      ((EquProof.codec cF c1 c2).ser m pf).length = 41 + 4 * k1 + 2 * k2 + 2 * kF) ∧
    (∀ (equ : QuadEqu F) x y, equ.prove sch x y xc yc crs rng = .ok (pf, rng') →
      ((EquProof.codec cF c1 c2).ser m pf).length = 33 + 2 * k1 + 2 * k2 + kF) := by
  obtain ⟨s1, s2, s3, s4⟩ := C38_proofs sch crs rng rng' xc yc pf
  obtain ⟨r1, r2, r3, r4⟩ := C38_rand sch crs rng rng' xc yc pf
  refine ⟨?_, ?_, ?_, ?_⟩ <;> intro equ x y h
  · rw [proof_takes hF h1 h2 (s1 equ x y h).2.2.1 (s1 equ x y h).2.2.2 (r1 equ x y h)]; omega
  · rw [proof_takes hF h1 h2 (s2 equ x y h).2.2.1 (s2 equ x y h).2.2.2 (r2 equ x y h)]; omega
  · rw [proof_takes hF h1 h2 (s3 equ x y h).2.2.1 (s3 equ x y h).2.2.2 (r3 equ x y h)]; omega
  · rw [proof_takes hF h1 h2 (s4 equ x y h).2.2.1 (s4 equ x y h).2.2.2 (r4 equ x y h)]; omega

omit [Field F] [AddCommGroup G1] [Module F G1] [AddCommGroup G2] [Module F G2] in
theorem msg_takes {x y l : Nat} {cp : CProof F G1 G2} {pf : EquProof F G1 G2} (hx : ((Commit.codec cF c1).ser m cp.xcoms).length = x)
    (hy : ((Commit.codec cF c2).ser m cp.ycoms).length = y) (hp : cp.equ_proofs = [pf])
    (hl : ((EquProof.codec cF c1 c2).ser m pf).length = l) : ((CProof.codec cF c1 c2).ser m cp).length = x + y + (8 + l) := by
  have : (CProof.codec cF c1 c2).ser m cp = (Commit.codec cF c1).ser m cp.xcoms ++ ((Commit.codec cF c2).ser m cp.ycoms ++
    (vecCodec (EquProof.codec cF c1 c2)).ser m cp.equ_proofs) := rfl
  rw [this, List.length_append, List.length_append, hx, hy, hp, vec_takes (k := l) _ (by simpa using hl)]
  simp; omega

/-- C111: the length of what is sent after `commit_and_prove` is known from the equation and the numbers of variables. -/
theorem C111_message (hF : cF.Takes m kF) (h1 : c1.Takes m k1) (h2 : c2.Takes m k2) (cp : CProof F G1 G2) :
    (∀ (equ : PPE F G1 G2 GT) x y, equ.commitAndProve sch x y crs rng = .ok (cp, rng') → ((CProof.codec cF c1 c2).ser m cp).length =
      81 + 4 * (k1 + k2 + kF) + x.length * (2 * k1 + 8 + 2 * kF) + y.length * (2 * k2 + 8 + 2 * kF)) ∧
    (∀ (equ : MSMEG1 F G1) x y, equ.commitAndProve sch x y crs rng = .ok (cp, rng') → ((CProof.codec cF c1 c2).ser m cp).length =
      73 + (2 * k1 + 4 * k2 + 2 * kF) + x.length * (2 * k1 + 8 + 2 * kF) + y.length * (2 * k2 + 8 + kF)) ∧
    (∀ (equ : MSMEG2 F G2) x y, equ.commitAndProve sch x y crs rng = .ok (cp, rng') → ((CProof.codec cF c1 c2).ser m cp).length =
      81 + (4 * k1 + 2 * k2 + 2 * kF) + x.length * (2 * k1 + 8 + kF) + y.length * (2 * k2 + 8 + 2 * kF)) ∧
    (∀ (equ : QuadEqu F) x y, equ.commitAndProve sch x y crs rng = .ok (cp, rng') → ((CProof.codec cF c1 c2).ser m cp).length =
      73 + (2 * k1 + 2 * k2 + kF) + x.length * (2 * k1 + 8 + kF) + y.length * (2 * k2 + 8 + kF)) := by
  refine ⟨?_, ?_, ?_, ?_⟩ <;> intro equ x y h
  · simp only [PPE.commitAndProve, bind_ok_iff] at h
    obtain ⟨⟨xc, r1⟩, hx, ⟨yc, r2⟩, hy, ⟨pf, r3⟩, hp, h⟩ := h
    cases h
    have hm := msg_takes (cp := ⟨xc, yc, [pf]⟩) ((C111_commit crs rng r1 xc yc hF h1 h2).1 x hx) ((C111_commit crs r1 r2 xc yc hF h1 h2).2.1 y hy) rfl
      ((C111_proof sch crs r2 r3 xc yc pf hF h1 h2).1 equ x y hp)
    exact hm.trans (by omega)
  · simp only [MSMEG1.commitAndProve, bind_ok_iff] at h
    obtain ⟨⟨xc, r1⟩, hx, ⟨yc, r2⟩, hy, ⟨pf, r3⟩, hp, h⟩ := h
    cases h
    have hm := msg_takes (cp := ⟨xc, yc, [pf]⟩) ((C111_commit crs rng r1 xc yc hF h1 h2).1 x hx) ((C111_commit crs r1 r2 xc yc hF h1 h2).2.2.2.1 y hy) rfl
      ((C111_proof sch crs r2 r3 xc yc pf hF h1 h2).2.1 equ x y hp)
    exact hm.trans (by omega)
  · simp only [MSMEG2.commitAndProve, bind_ok_iff] at h
    obtain ⟨⟨xc, r1⟩, hx, ⟨yc, r2⟩, hy, ⟨pf, r3⟩, hp, h⟩ := h
    cases h
    have hm := msg_takes (cp := ⟨xc, yc, [pf]⟩) ((C111_commit crs rng r1 xc yc hF h1 h2).2.2.1 x hx) ((C111_commit crs r1 r2 xc yc hF h1 h2).2.1 y hy) rfl
      ((C111_proof sch crs r2 r3 xc yc pf hF h1 h2).2.2.1 equ x y hp)
    exact hm.trans (by omega)
  · simp only [QuadEqu.commitAndProve, bind_ok_iff] at h
    obtain ⟨⟨xc, r1⟩, hx, ⟨yc, r2⟩, hy, ⟨pf, r3⟩, hp, h⟩ := h
    cases h
    have hm := msg_takes (cp := ⟨xc, yc, [pf]⟩) ((C111_commit crs rng r1 xc yc hF h1 h2).2.2.1 x hx) ((C111_commit crs r1 r2 xc yc hF h1 h2).2.2.2.1 y hy) rfl
      ((C111_proof sch crs r2 r3 xc yc pf hF h1 h2).2.2.2 equ x y hp)
    exact hm.trans (by omega)

/-- C111: the length of a serialized generated CRS. -/
theorem C111_crs (e : G1 →ₗ[F] G2 →ₗ[F] GT) (h1 : c1.Takes m k1) (h2 : c2.Takes m k2) (hT : cT.Takes m kT) :
    ((CRS.codec c1 c2 cT).ser m (generateCrs e rng).1).length = 16 + 5 * k1 + 5 * k2 + kT := by
  obtain ⟨g1, g2, a1, a2, t1, t2, s1, s2, s3, s4, s5, s6, -, -, -, -, -, -, h⟩ := C34_generate_crs (F := F) e rng
  rw [h]
  simp only [CRS.codec, structCodec, prodCodec, List.length_append]
  rw [vec_takes (k := 2 * k1) _ fun a _ => com_takes h1 a, vec_takes (k := 2 * k2) _ fun a _ => com_takes h2 a, h1, h2, hT]
  simp; omega

/-- C111: the lengths of elements, in the format of C110. -/
theorem C111_elements {c : FieldCodec B} [Field B] [DecidableEq B] (E : SWCurve B) {k k' : Nat}
    (hk : ∀ m, c.plain.Takes m k) (hk' : ∀ x fl, (c.serFlags x fl).length = k') :
    (E.codec c).Takes .Yes k' ∧ (E.codec c).Takes .No (k + k') := by
  constructor <;> intro P <;> simp only [SWCurve.codec] <;> split <;> simp [hk', hk _ _]

/-- C111: prime fields and their extensions. -/
theorem C111_fields (p k k' : Nat) (mk : B × B → C) (fields : C → B × B) (mk3 : B × B × B → C) (fields3 : C → B × B × B)
    (c : FieldCodec B) (l l' : Nat) :
    (∀ m, (fpCodec p k k').plain.Takes m k) ∧ (∀ x fl, ((fpCodec p k k').serFlags x fl).length = k') ∧
    ((∀ m, c.plain.Takes m l) → (∀ x fl, (c.serFlags x fl).length = l') →
      ((∀ m, (quadCodec c mk fields).plain.Takes m (2 * l)) ∧ ∀ x fl, ((quadCodec c mk fields).serFlags x fl).length = l + l') ∧
      (∀ m, (cubicCodec c mk3 fields3).plain.Takes m (3 * l)) ∧ ∀ x fl, ((cubicCodec c mk3 fields3).serFlags x fl).length = 2 * l + l') := by
  refine ⟨fun m x => by simp [fpCodec, length_leBytes], fun x fl => by simp [fpCodec, length_onLast, length_leBytes],
    fun h h' => ⟨⟨fun m x => ?_, fun x fl => ?_⟩, fun m x => ?_, fun x fl => ?_⟩⟩
  · simp [quadCodec, structCodec, prodCodec, h _ _]; omega
  · simp [quadCodec, h _ _, h']
  · simp [cubicCodec, structCodec, prodCodec, h _ _]; omega
  · simp [cubicCodec, h _ _, h']; omega

namespace Ex

theorem k_takes (m : Compress) : kCodec.Takes m 1 := fun _ => rfl

/-- One and two variables, and elements of one byte. -/
example (sch : Nat → Scheduler) : ∃ cp r, ppe7.commitAndProve sch [2] [3, 4] crs7 (0 : Nat) = .ok (cp, r) ∧
    ((CProof.codec kCodec kCodec kCodec).ser .Yes cp).length = 129 := by
  obtain ⟨⟨cp, r⟩, h⟩ := ((C36_commit_and_prove sch crs7 (0 : Nat)).1 ppe7 [2] [3, 4]).mpr ⟨by simp, by simp, ppe7_dims, rfl, rfl⟩
  exact ⟨cp, r, h, (C111_message sch crs7 (0 : Nat) r (k_takes .Yes) (k_takes .Yes) (k_takes .Yes) cp).1 ppe7 [2] [3, 4] h⟩

example : ∃ xc r, batchCommitG1 [2, 3] crs7 (0 : Nat) (F := K) = .ok (xc, r) ∧ ((Commit.codec kCodec kCodec).ser .Yes xc).length = 40 :=
  ⟨_, _, rfl, (C111_commit crs7 (0 : Nat) _ _ ⟨[], []⟩ (k_takes .Yes) (k_takes .Yes) (k_takes .Yes)).1 [2, 3] rfl⟩

example : ∃ pf r, ppe7.prove (fun _ => seqSched) [2] [3, 4] ppe7_msg.xcoms ppe7_msg.ycoms crs7 (0 : Nat) = .ok (pf, r) ∧
    ((EquProof.codec kCodec kCodec kCodec).ser .Yes pf).length = 53 :=
  ⟨_, _, rfl, (C111_proof (fun _ => seqSched) crs7 (0 : Nat) _ ppe7_msg.xcoms ppe7_msg.ycoms _ (k_takes .Yes) (k_takes .Yes)
    (k_takes .Yes)).1 ppe7 [2] [3, 4] rfl⟩

example : ((CRS.codec kCodec kCodec kCodec).ser .Yes (generateCrs e7 (1 : Nat)).1).length = 27 :=
  C111_crs (1 : Nat) e7 (k_takes .Yes) (k_takes .Yes) (k_takes .Yes)

example : pCodec.Takes .Yes 1 ∧ pCodec.Takes .No 2 := by
  obtain ⟨h, h', -⟩ := C111_fields 7 1 1 (B := K) (C := K × K) id id (fun t => (t.1, t.2.1)) (fun t => (t.1, t.2, 0)) fp7 1 1
  exact C111_elements curve7 h h'

end Ex
end GS
