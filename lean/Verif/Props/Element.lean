import Verif.Lemmas.Element
import Verif.Props.Encoding

/-!
# C110: with the codecs of arkworks

The codecs of ark-ff and ark-ec meet what the other theorems ask of field elements and of elements of the target group. For points they meet it
only on the curve, and points do have several encodings.
-/

namespace GS
variable {F G1 G2 GT T B C : Type}

/-! ### Fields and the target group -/

/-- C110: elements of a prime field are read back, from one string only, with and without flags. -/
theorem C110_fp {p k k' : Nat} [NeZero p] (hk : p ≤ 256 ^ k) (hk' : 4 * p ≤ 256 ^ k') :
    (fpCodec p k k').Lawful ∧ (fpCodec p k k').plain.Lawful ∧ (fpCodec p k k').plain.Canonical :=
  ⟨fp_lawful hk hk', fp_plain_lawful hk, (fp_lawful hk hk').canonical⟩

/-- C110: so are those of quadratic extensions. -/
theorem C110_quad [Zero B] [Zero C] {c : FieldCodec B} (h : c.Lawful) (mk : B × B → C) (fields : C → B × B)
    (h1 : ∀ a, fields (mk a) = a) (h2 : ∀ b, mk (fields b) = b) : (quadCodec c mk fields).Lawful := quad_lawful h h1 h2

/-- C110: and those of cubic extensions. -/
theorem C110_cubic [Zero B] [Zero C] {c : FieldCodec B} (h : c.Lawful) (mk : B × B × B → C) (fields : C → B × B × B)
    (h1 : ∀ a, fields (mk a) = a) (h2 : ∀ b, mk (fields b) = b) : (cubicCodec c mk fields).Lawful := cubic_lawful h h1 h2

/-- C110: elements of the target group are read back, and from one string only, if those of the target field are. -/
theorem C110_output {c : Codec T} (h : c.Lawful) (hc : c.Canonical) (inGroup : T → Bool) :
    (outputCodec c inGroup).Lawful ∧ (outputCodec c inGroup).Canonical ∧ ∀ f, (outputCodec c inGroup).Valid f ↔ inGroup f = true :=
  ⟨output_lawful h, output_canonical hc, output_valid⟩

/-! ### Points -/

section points
variable [Field B] [DecidableEq B] {E : SWCurve B} {c : FieldCodec B}

/-- C110: what is read in compressed form. Every string with the flag of infinity is the identity; a point on the curve is read from its first
coordinate and the flag of its second one, or from both flags if the second one is its own negative. -/
theorem C110_compressed (hE : E.Lawful) (hc : c.Lawful) (v : Validate) (bs : Bytes) (P : Affine B) (rest : Bytes) :
    (E.codec c).de .Yes v bs = .ok (P, rest) ↔
      (P = Affine.identity ∧ ∃ x, bs = c.serFlags x .PointAtInfinity ++ rest) ∨
      (P.infinity = false ∧ E.onCurve P = true ∧ (v = .Yes → E.inSubgroup P = true) ∧
        ∃ fl, fl ≠ .PointAtInfinity ∧ (fl = E.toFlags P ∨ P.y = -P.y) ∧ bs = c.serFlags P.x fl ++ rest) :=
  SWCurve.de_compressed hE hc v bs P rest

/-- C110: what is read in uncompressed form. The flag for the sign is ignored; without validation any pair of coordinates is a point. -/
theorem C110_uncompressed (hc : c.Lawful) (v : Validate) (bs : Bytes) (P : Affine B) (rest : Bytes) :
    (E.codec c).de .No v bs = .ok (P, rest) ↔
      (P = Affine.identity ∧ ∃ x y, bs = c.plain.ser .No x ++ c.serFlags y .PointAtInfinity ++ rest) ∨
      (P.infinity = false ∧ (v = .Yes → E.onCurve P = true ∧ E.inSubgroup P = true) ∧
        ∃ fl, fl ≠ .PointAtInfinity ∧ bs = c.plain.ser .No P.x ++ c.serFlags P.y fl ++ rest) :=
  SWCurve.de_uncompressed hc v bs P rest

/-- C110: the laws that hold for all points, and for which points the other one holds. -/
theorem C110_points (hE : E.Lawful) (hc : c.Lawful) :
    (E.codec c).Orderly ∧ (∀ m P, ((E.codec c).ser m P).length = (E.codec c).size m P) ∧
    (∀ P, (E.codec c).Returns .Yes P ↔ P = Affine.identity ∨ (P.infinity = false ∧ E.onCurve P = true)) ∧
    (∀ P, (E.codec c).Returns .No P ↔ P = Affine.identity ∨ P.infinity = false) :=
  ⟨SWCurve.orderly hE hc, SWCurve.size hc, SWCurve.returns_compressed hE hc, SWCurve.returns_uncompressed hc⟩

/-- C110: a point of the curve has one compressed encoding, except the identity and the points of order two. -/
theorem C110_unique_compressed (hE : E.Lawful) (hc : c.Lawful) (P : Affine B) (hP : E.proper P = true) :
    (E.codec c).Unique .Yes P ↔ P ≠ Affine.identity ∧ P.y ≠ -P.y := by
  constructor
  · intro hu
    constructor
    · rintro rfl
      have h := hu (c.serFlags 1 .PointAtInfinity) fun rest => (C110_compressed hE hc _ _ _ _).mpr (.inl ⟨rfl, 1, rfl⟩)
      exact one_ne_zero (hc.inj h).1
    · intro hy
      rcases (SWCurve.proper_iff P).mp hP with rfl | ⟨h1, h2⟩
      · have h := hu (c.serFlags 1 .PointAtInfinity) fun rest => (C110_compressed hE hc _ _ _ _).mpr (.inl ⟨rfl, 1, rfl⟩)
        exact one_ne_zero (hc.inj h).1
      · have key : ∀ fl, fl ≠ SWFlags.PointAtInfinity → fl = E.toFlags P := by
          intro fl hfl
          have h := hu (c.serFlags P.x fl) fun rest => (C110_compressed hE hc _ _ _ _).mpr
            (.inr ⟨h1, h2, by simp, fl, hfl, .inr hy, rfl⟩)
          rw [SWCurve.ser_finite h1] at h
          exact (hc.inj h).2
        have := (key .YIsPositive (by simp)).trans (key .YIsNegative (by simp)).symm
        simp at this
  · rintro ⟨h1, h2⟩ bs hb
    rcases (C110_compressed hE hc _ _ _ _).mp (hb []) with ⟨h3, -⟩ | ⟨h3, -, -, fl, -, h5 | h5, h6⟩
    · exact absurd h3 h1
    · rw [SWCurve.ser_finite h3]
      simpa [h5] using h6
    · exact absurd h5 h2

/-- C110: no point at all has only one uncompressed encoding. -/
theorem C110_unique_uncompressed (hc : c.Lawful) (P : Affine B) : (E.codec c).Returns .No P → ¬ (E.codec c).Unique .No P := by
  intro hr hu
  rcases (SWCurve.returns_uncompressed hc P).mp hr with rfl | h1
  · have h := hu (c.plain.ser .No 0 ++ c.serFlags 1 .PointAtInfinity) fun rest =>
      (C110_uncompressed hc _ _ _ _).mpr (.inl ⟨rfl, 0, 1, rfl⟩)
    exact one_ne_zero (hc.inj (List.append_cancel_left h)).1
  · have key : ∀ fl, fl ≠ SWFlags.PointAtInfinity → fl = E.toFlags P := by
      intro fl hfl
      have h := hu (c.plain.ser .No P.x ++ c.serFlags P.y fl) fun rest => (C110_uncompressed hc _ _ _ _).mpr
        (.inr ⟨h1, by simp, fl, hfl, rfl⟩)
      rw [SWCurve.ser_finite h1] at h
      exact (hc.inj (List.append_cancel_left h)).2
    have := (key .YIsPositive (by simp)).trans (key .YIsNegative (by simp)).symm
    simp at this

theorem sw_returnsSome (hE : E.Lawful) (hc : c.Lawful) : (E.codec c).ReturnsSome :=
  ⟨Affine.identity, fun m => by
    cases m
    · exact (SWCurve.returns_compressed hE hc _).mpr (.inl rfl)
    · exact (SWCurve.returns_uncompressed hc _).mpr (.inl rfl)⟩

theorem sw_not_canonical (hE : E.Lawful) (hc : c.Lawful) : ¬ (E.codec c).Canonical := by
  intro h
  have hu : (E.codec c).Unique .Yes Affine.identity := fun bs hb => by
    have := h _ _ _ _ _ (hb [])
    simpa using this
  exact ((C110_unique_compressed hE hc _ ((SWCurve.proper_iff _).mpr (.inl rfl))).mp hu).1 rfl

end points

/-! ### Composite values -/

section composite
variable {B' : Type} [Field B] [DecidableEq B] [Field B'] [DecidableEq B'] {E : SWCurve B} {E' : SWCurve B'} {c : FieldCodec B} {c' : FieldCodec B'}

/-- C110: the property of C58 fails for every type with points in it. -/
theorem C110_not_canonical (hE : E.Lawful) (hc : c.Lawful) (hE' : E'.Lawful) (hc' : c'.Lawful)
    {cF : Codec F} (hF : cF.Lawful) [Nonempty F] {cT : Codec GT} (hT : cT.Lawful) [Nonempty GT] :
    ¬ (Com.codec (E.codec c)).Canonical ∧
    ¬ (Commit.codec cF (E.codec c)).Canonical ∧
    ¬ (CRS.codec (E.codec c) (E'.codec c') cT).Canonical ∧
    ¬ (EquProof.codec cF (E.codec c) (E'.codec c')).Canonical ∧
    ¬ (PPE.codec cF (E.codec c) (E'.codec c') cT).Canonical ∧
    ¬ (MSMEG1.codec cF (E.codec c)).Canonical ∧
    ¬ (MSMEG2.codec cF (E'.codec c')).Canonical := by
  have o := SWCurve.orderly hE hc
  have o' := SWCurve.orderly hE' hc'
  have n := sw_not_canonical hE hc
  have n' := sw_not_canonical hE' hc'
  have s := sw_returnsSome hE hc
  have s' := sw_returnsSome hE' hc'
  have sT : cT.ReturnsSome := ⟨Classical.arbitrary _, fun m => hT.returns m _⟩
  refine ⟨?_, ?_, ?_, ?_, ?_, ?_, ?_⟩
  · rw [C109_canonical_com o s]; exact n
  · rw [C109_canonical_commit hF.orderly o s]; exact fun h => n h.2
  · rw [C109_canonical_crs o o' hT.orderly s s' sT]; exact fun h => n h.1
  · rw [C109_canonical_proof hF.orderly o o' s s']; exact fun h => n h.2.1
  · rw [C109_canonical_ppe hF.orderly o o' hT.orderly sT]; exact fun h => n h.2.1
  · rw [C109_canonical_msmeg1 hF.orderly o s]; exact fun h => n h.2
  · rw [C109_canonical_msmeg2 hF.orderly o' s']; exact fun h => n' h.2

/-- C110: a proof in compressed form can be re-encoded exactly if it contains the identity or a point of order two. -/
theorem C110_proof_compressed (hE : E.Lawful) (hc : c.Lawful) (hE' : E'.Lawful) (hc' : c'.Lawful) {cF : Codec F} (hF : cF.Lawful)
    (hFc : cF.Canonical) (x : EquProof F (Affine B) (Affine B')) (hx : x.Fits)
    (hp : x.Elems (fun _ => True) (fun P => E.proper P = true) (fun P => E'.proper P = true)) :
    (EquProof.codec cF (E.codec c) (E'.codec c')).Unique .Yes x ↔
      x.Elems (fun _ => True) (fun P => P ≠ Affine.identity ∧ P.y ≠ -P.y) (fun P => P ≠ Affine.identity ∧ P.y ≠ -P.y) := by
  have r : ∀ P, E.proper P = true → (E.codec c).Returns .Yes P := fun P h =>
    (SWCurve.returns_compressed hE hc P).mpr ((SWCurve.proper_iff P).mp h)
  have r' : ∀ P, E'.proper P = true → (E'.codec c').Returns .Yes P := fun P h =>
    (SWCurve.returns_compressed hE' hc' P).mpr ((SWCurve.proper_iff P).mp h)
  have uF : ∀ a, cF.Unique .Yes a := fun a bs hb => by simpa using hFc _ _ _ _ _ (hb [])
  rw [C109_unique_proof hF.orderly (SWCurve.orderly hE hc) (SWCurve.orderly hE' hc') .Yes x hx
    ⟨fun a ha => ⟨r' _ (hp.1 a ha).1, r' _ (hp.1 a ha).2⟩, fun a ha => ⟨r _ (hp.2.1 a ha).1, r _ (hp.2.1 a ha).2⟩,
      fun _ _ a _ => hF.returns _ a⟩]
  refine and_congr (forall₂_congr fun a ha => ?_) (and_congr (forall₂_congr fun a ha => ?_) ?_)
  · exact and_congr (C110_unique_compressed hE' hc' _ (hp.1 a ha).1) (C110_unique_compressed hE' hc' _ (hp.1 a ha).2)
  · exact and_congr (C110_unique_compressed hE hc _ (hp.2.1 a ha).1) (C110_unique_compressed hE hc _ (hp.2.1 a ha).2)
  · simp [uF]

/-- C110: a proof in uncompressed form can always be re-encoded, if it contains any point. -/
theorem C110_proof_uncompressed (hE : E.Lawful) (hc : c.Lawful) (hE' : E'.Lawful) (hc' : c'.Lawful) {cF : Codec F} (hF : cF.Lawful)
    (x : EquProof F (Affine B) (Affine B')) (hx : x.Fits)
    (hp : x.Elems (fun _ => True) (fun P => E.proper P = true) (fun P => E'.proper P = true)) (hne : x.pi ≠ [] ∨ x.theta ≠ []) :
    ∃ bs, bs ≠ (EquProof.codec cF (E.codec c) (E'.codec c')).ser .No x ∧
      ∀ v, (v = .Yes → x.Elems cF.Valid (E.codec c).Valid (E'.codec c').Valid) →
        (EquProof.codec cF (E.codec c) (E'.codec c')).Reads .No v x bs := by
  have p2 : ∀ P, E.proper P = true → P = Affine.identity ∨ P.infinity = false := fun P h =>
    ((SWCurve.proper_iff P).mp h).imp_right And.left
  have p2' : ∀ P, E'.proper P = true → P = Affine.identity ∨ P.infinity = false := fun P h =>
    ((SWCurve.proper_iff P).mp h).imp_right And.left
  have r : ∀ P, E.proper P = true → (E.codec c).Returns .No P := fun P h =>
    (SWCurve.returns_uncompressed hc P).mpr (p2 P h)
  have r' : ∀ P, E'.proper P = true → (E'.codec c').Returns .No P := fun P h =>
    (SWCurve.returns_uncompressed hc' P).mpr (p2' P h)
  by_contra hcon
  have hu : (EquProof.codec cF (E.codec c) (E'.codec c')).Unique .No x := by
    intro bs hb
    by_contra h
    refine hcon ⟨bs, h, fun v hv rest => ?_⟩
    have hC := C109_proof hF.orderly (SWCurve.orderly hE hc) (SWCurve.orderly hE' hc') .No
    obtain ⟨used, e, hin, -⟩ := (hC .No _ _ _).mp (hb rest)
    exact (hC v _ _ _).mpr ⟨used, e, hin, hv⟩
  rw [C109_unique_proof hF.orderly (SWCurve.orderly hE hc) (SWCurve.orderly hE' hc') .No x hx
    ⟨fun a ha => ⟨r' _ (hp.1 a ha).1, r' _ (hp.1 a ha).2⟩, fun a ha => ⟨r _ (hp.2.1 a ha).1, r _ (hp.2.1 a ha).2⟩,
      fun _ _ a _ => hF.returns _ a⟩] at hu
  rcases hne with h | h
  · obtain ⟨a, ha⟩ := List.exists_mem_of_ne_nil _ h
    exact C110_unique_uncompressed hc' _ (r' _ (hp.1 a ha).1) (hu.1 a ha).1
  · obtain ⟨a, ha⟩ := List.exists_mem_of_ne_nil _ h
    exact C110_unique_uncompressed hc _ (r _ (hp.2.1 a ha).1) (hu.2.1 a ha).1

end composite

/-! ### The other results apply to the points of the curve -/

/-- C110: restricted to the points of the curve, the codec is lawful. Reading returns only such points, except uncompressed and without
validation. -/
theorem C110_only [Field B] [DecidableEq B] {E : SWCurve B} {c : FieldCodec B} (hE : E.Lawful) (hc : c.Lawful) :
    ((E.codec c).only E.proper).Lawful ∧
    (∀ m v bs P rest, ((E.codec c).only E.proper).de m v bs = .ok (P, rest) ↔ (E.codec c).de m v bs = .ok (P.1, rest)) ∧
    ∀ m v bs P rest, (m = .Yes ∨ v = .Yes) → (E.codec c).de m v bs = .ok (P, rest) → E.proper P = true := by
  refine ⟨only_lawful (SWCurve.orderly hE hc) (SWCurve.size hc) fun m P h => ?_, fun m v bs P rest => only_de, fun m v bs P rest hm hd => ?_⟩
  · cases m
    · exact (SWCurve.returns_compressed hE hc P).mpr ((SWCurve.proper_iff P).mp h)
    · exact (SWCurve.returns_uncompressed hc P).mpr (((SWCurve.proper_iff P).mp h).imp_right And.left)
  · rw [SWCurve.proper_iff]
    cases m with
    | Yes =>
      rcases (SWCurve.de_compressed hE hc _ _ _ _).mp hd with ⟨h1, -⟩ | ⟨h1, h2, -⟩
      · exact .inl h1
      · exact .inr ⟨h1, h2⟩
    | No =>
      rcases (SWCurve.de_uncompressed hc _ _ _ _).mp hd with ⟨h1, -⟩ | ⟨h1, h2, -⟩
      · exact .inl h1
      · exact .inr ⟨h1, (h2 (hm.resolve_left (by simp))).1⟩


section transfer
variable {cF : Codec F} {c1 : Codec G1} {c2 : Codec G2} {cT : Codec GT} {p1 : G1 → Bool} {p2 : G2 → Bool}

theorem com_in_on {G H : Type} (f : G → H) (R : H → Bytes → Prop) (l : List (Com G)) (bs : Bytes) :
    VecIn (Com.In R) (l.map (Com.on f)) bs ↔ VecIn (Com.In fun a => R (f a)) l bs := by
  rw [vecIn_map]; rfl

theorem com_elems_on {G H : Type} (f : G → H) (p : H → Prop) (l : List (Com G)) :
    (∀ a ∈ l.map (Com.on f), a.Elems p) ↔ ∀ a ∈ l, a.Elems fun x => p (f x) := by
  rw [List.forall_mem_map]; rfl

theorem only_reads_fun {c : Codec T} {p : T → Bool} (m : Compress) :
    (c.only p).Reads m .No = fun (x : {x // p x = true}) => c.Reads m .No x.1 := by
  funext x bs
  exact propext only_reads

theorem only_valid {c : Codec T} {p : T → Bool} : (c.only p).Valid = fun (x : {x // p x = true}) => c.Valid x.1 := rfl

/-- Coordinates that were read with validation have the property. -/
theorem com_lift {c : Codec G1} (ho : c.Orderly) (hp : ∀ m bs x rest, c.de m .Yes bs = .ok (x, rest) → p1 x = true) {m : Compress}
    (l : List (Com G1)) {bs : Bytes} (h : VecIn (Com.In (c.Reads m .No)) l bs) (hv : ∀ a ∈ l, a.Elems c.Valid) :
    ∃ l' : List (Com {x // p1 x = true}), l'.map (Com.on (·.1)) = l := by
  have key : ∀ a ∈ l, p1 a.c0 = true ∧ p1 a.c1 = true := by
    intro a ha
    obtain ⟨b, b0, b1, -, r0, r1⟩ := vecIn_mem h ha
    exact ⟨hp m _ _ _ ((ho.validate _ _ _ _).mpr ⟨r0 [], (hv a ha).1⟩), hp m _ _ _ ((ho.validate _ _ _ _).mpr ⟨r1 [], (hv a ha).2⟩)⟩
  clear h hv
  induction l with
  | nil => exact ⟨[], rfl⟩
  | cons a l ih =>
    obtain ⟨l', rfl⟩ := ih fun a ha => key a (by simp [ha])
    exact ⟨⟨⟨a.c0, (key a (by simp)).1⟩, ⟨a.c1, (key a (by simp)).2⟩⟩ :: l', rfl⟩

theorem elem_lift {c : Codec G1} (ho : c.Orderly) (hp : ∀ m bs x rest, c.de m .Yes bs = .ok (x, rest) → p1 x = true) {m : Compress}
    {x : G1} {bs : Bytes} (h : c.Reads m .No x bs) (hv : c.Valid x) : p1 x = true :=
  hp m _ _ _ ((ho.validate _ _ _ _).mpr ⟨h [], hv⟩)

theorem elems_lift {c : Codec G1} (ho : c.Orderly) (hp : ∀ m bs x rest, c.de m .Yes bs = .ok (x, rest) → p1 x = true) {m : Compress}
    (l : List G1) {bs : Bytes} (h : VecIn (c.Reads m .No) l bs) (hv : ∀ a ∈ l, c.Valid a) :
    ∃ l' : List {x // p1 x = true}, l'.map (·.1) = l :=
  list_lift l fun a ha => by
    obtain ⟨b, hb⟩ := vecIn_mem h ha
    exact elem_lift ho hp hb (hv a ha)

/-- C110: reading a commitment with the restricted codec is reading it with the codec itself, and validated commitments are of this kind. -/
theorem C110_only_commit (hF : cF.Orderly) (h1 : c1.Orderly) (m : Compress) (v : Validate) (bs rest : Bytes) :
    (∀ x, (Commit.codec cF (c1.only p1)).de m v bs = .ok (x, rest) ↔ (Commit.codec cF c1).de m v bs = .ok (x.on (·.1), rest)) ∧
    ((∀ m bs x rest, c1.de m .Yes bs = .ok (x, rest) → p1 x = true) → ∀ y, (Commit.codec cF c1).de m .Yes bs = .ok (y, rest) →
      ∃ x : Commit F {x // p1 x = true}, y = x.on (·.1)) := by
  refine ⟨fun x => ?_, fun hp y hd => ?_⟩
  · rw [C109_commit hF (only_orderly h1), C109_commit hF h1]
    simp only [Commit.In, Commit.Elems, Commit.on, com_in_on, com_elems_on, only_reads_fun, only_valid]
  · obtain ⟨used, -, ⟨b0, b1, -, i0, -⟩, hv⟩ := (C109_commit hF h1 _ _ _ _ _).mp hd
    obtain ⟨l, hl⟩ := com_lift h1 hp y.coms i0 (hv rfl).1
    exact ⟨⟨l, y.rand⟩, by rw [Commit.on, hl]⟩

/-- C110: the same for the CRS. -/
theorem C110_only_crs (h1 : c1.Orderly) (h2 : c2.Orderly) (hT : cT.Orderly) (m : Compress) (v : Validate) (bs rest : Bytes) :
    (∀ x, (CRS.codec (c1.only p1) (c2.only p2) cT).de m v bs = .ok (x, rest) ↔
      (CRS.codec c1 c2 cT).de m v bs = .ok (x.on (·.1) (·.1), rest)) ∧
    ((∀ m bs x rest, c1.de m .Yes bs = .ok (x, rest) → p1 x = true) → (∀ m bs x rest, c2.de m .Yes bs = .ok (x, rest) → p2 x = true) →
      ∀ y, (CRS.codec c1 c2 cT).de m .Yes bs = .ok (y, rest) →
      ∃ x : CRS {x // p1 x = true} {x // p2 x = true} GT, y = x.on (·.1) (·.1)) := by
  refine ⟨fun x => ?_, fun hp hp' y hd => ?_⟩
  · rw [C109_crs (only_orderly h1) (only_orderly h2) hT, C109_crs h1 h2 hT]
    simp only [CRS.In, CRS.Elems, CRS.on, com_in_on, com_elems_on, only_reads_fun, only_valid]
  · obtain ⟨used, -, ⟨b0, b1, b2, b3, b4, -, i0, i1, i2, i3, -⟩, hv⟩ := (C109_crs h1 h2 hT _ _ _ _ _).mp hd
    obtain ⟨v0, v1, v2, v3, -⟩ := hv rfl
    obtain ⟨l, hl⟩ := com_lift h1 hp y.u i0 v0
    obtain ⟨l', hl'⟩ := com_lift h2 hp' y.v i1 v1
    exact ⟨⟨l, l', ⟨_, elem_lift h1 hp i2 v2⟩, ⟨_, elem_lift h2 hp' i3 v3⟩, y.gt_gen⟩, by rw [CRS.on, hl, hl']⟩

/-- C110: the same for proofs. -/
theorem C110_only_proof (hF : cF.Orderly) (h1 : c1.Orderly) (h2 : c2.Orderly) (m : Compress) (v : Validate) (bs rest : Bytes) :
    (∀ x, (EquProof.codec cF (c1.only p1) (c2.only p2)).de m v bs = .ok (x, rest) ↔
      (EquProof.codec cF c1 c2).de m v bs = .ok (x.on (·.1) (·.1), rest)) ∧
    ((∀ m bs x rest, c1.de m .Yes bs = .ok (x, rest) → p1 x = true) → (∀ m bs x rest, c2.de m .Yes bs = .ok (x, rest) → p2 x = true) →
      ∀ y, (EquProof.codec cF c1 c2).de m .Yes bs = .ok (y, rest) →
      ∃ x : EquProof F {x // p1 x = true} {x // p2 x = true}, y = x.on (·.1) (·.1)) := by
  refine ⟨fun x => ?_, fun hp hp' y hd => ?_⟩
  · rw [C109_proof hF (only_orderly h1) (only_orderly h2), C109_proof hF h1 h2]
    simp only [EquProof.In, EquProof.Elems, EquProof.on, com_in_on, com_elems_on, only_reads_fun, only_valid]
  · obtain ⟨used, -, ⟨b0, b1, b3, -, i0, i1, -⟩, hv⟩ := (C109_proof hF h1 h2 _ _ _ _ _).mp hd
    obtain ⟨v0, v1, -⟩ := hv rfl
    obtain ⟨l, hl⟩ := com_lift h2 hp' y.pi i0 v0
    obtain ⟨l', hl'⟩ := com_lift h1 hp y.theta i1 v1
    exact ⟨⟨l, l', y.equ_type, y.rand⟩, by rw [EquProof.on, hl, hl']⟩

/-- C110: the same for pairing product equations. -/
theorem C110_only_ppe (hF : cF.Orderly) (h1 : c1.Orderly) (h2 : c2.Orderly) (hT : cT.Orderly) (m : Compress) (v : Validate) (bs rest : Bytes) :
    (∀ x, (PPE.codec cF (c1.only p1) (c2.only p2) cT).de m v bs = .ok (x, rest) ↔
      (PPE.codec cF c1 c2 cT).de m v bs = .ok (x.on (·.1) (·.1), rest)) ∧
    ((∀ m bs x rest, c1.de m .Yes bs = .ok (x, rest) → p1 x = true) → (∀ m bs x rest, c2.de m .Yes bs = .ok (x, rest) → p2 x = true) →
      ∀ y, (PPE.codec cF c1 c2 cT).de m .Yes bs = .ok (y, rest) →
      ∃ x : PPE F {x // p1 x = true} {x // p2 x = true} GT, y = x.on (·.1) (·.1)) := by
  refine ⟨fun x => ?_, fun hp hp' y hd => ?_⟩
  · rw [C109_ppe hF (only_orderly h1) (only_orderly h2) hT, C109_ppe hF h1 h2 hT]
    simp only [PPE.In, PPE.Elems, PPE.on, vecIn_map, List.forall_mem_map, only_reads_fun, only_valid]
  · obtain ⟨used, -, ⟨b0, b1, b2, b3, -, i0, i1, -⟩, hv⟩ := (C109_ppe hF h1 h2 hT _ _ _ _ _).mp hd
    obtain ⟨v0, v1, -⟩ := hv rfl
    obtain ⟨l, hl⟩ := elems_lift h1 hp y.a_consts i0 v0
    obtain ⟨l', hl'⟩ := elems_lift h2 hp' y.b_consts i1 v1
    exact ⟨⟨l, l', y.gamma, y.target⟩, by rw [PPE.on, hl, hl']⟩

/-- C110: the same for multi-scalar equations in G1. -/
theorem C110_only_msmeg1 (hF : cF.Orderly) (h1 : c1.Orderly) (m : Compress) (v : Validate) (bs rest : Bytes) :
    (∀ x, (MSMEG1.codec cF (c1.only p1)).de m v bs = .ok (x, rest) ↔ (MSMEG1.codec cF c1).de m v bs = .ok (x.on (·.1), rest)) ∧
    ((∀ m bs x rest, c1.de m .Yes bs = .ok (x, rest) → p1 x = true) → ∀ y, (MSMEG1.codec cF c1).de m .Yes bs = .ok (y, rest) →
      ∃ x : MSMEG1 F {x // p1 x = true}, y = x.on (·.1)) := by
  refine ⟨fun x => ?_, fun hp y hd => ?_⟩
  · rw [C109_msmeg1 hF (only_orderly h1), C109_msmeg1 hF h1]
    simp only [MSMEG1.In, MSMEG1.Elems, MSMEG1.on, vecIn_map, List.forall_mem_map, only_reads_fun, only_valid]
  · obtain ⟨used, -, ⟨b0, b1, b2, b3, -, i0, i1, i2, i3⟩, hv⟩ := (C109_msmeg1 hF h1 _ _ _ _ _).mp hd
    obtain ⟨v0, v1, v2, v3⟩ := hv rfl
    obtain ⟨l, hl⟩ := elems_lift h1 hp y.a_consts i0 v0
    exact ⟨⟨l, y.b_consts, y.gamma, ⟨_, elem_lift h1 hp i3 v3⟩⟩, by rw [MSMEG1.on, hl]⟩

/-- C110: the same for multi-scalar equations in G2. -/
theorem C110_only_msmeg2 (hF : cF.Orderly) (h2 : c2.Orderly) (m : Compress) (v : Validate) (bs rest : Bytes) :
    (∀ x, (MSMEG2.codec cF (c2.only p2)).de m v bs = .ok (x, rest) ↔ (MSMEG2.codec cF c2).de m v bs = .ok (x.on (·.1), rest)) ∧
    ((∀ m bs x rest, c2.de m .Yes bs = .ok (x, rest) → p2 x = true) → ∀ y, (MSMEG2.codec cF c2).de m .Yes bs = .ok (y, rest) →
      ∃ x : MSMEG2 F {x // p2 x = true}, y = x.on (·.1)) := by
  refine ⟨fun x => ?_, fun hp y hd => ?_⟩
  · rw [C109_msmeg2 hF (only_orderly h2), C109_msmeg2 hF h2]
    simp only [MSMEG2.In, MSMEG2.Elems, MSMEG2.on, vecIn_map, List.forall_mem_map, only_reads_fun, only_valid]
  · obtain ⟨used, -, ⟨b0, b1, b2, b3, -, i0, i1, i2, i3⟩, hv⟩ := (C109_msmeg2 hF h2 _ _ _ _ _).mp hd
    obtain ⟨v0, v1, v2, v3⟩ := hv rfl
    obtain ⟨l, hl⟩ := elems_lift h2 hp y.b_consts i1 v1
    exact ⟨⟨y.a_consts, l, y.gamma, ⟨_, elem_lift h2 hp i3 v3⟩⟩, by rw [MSMEG2.on, hl]⟩

/-- C110: and both write the same bytes. -/
theorem C110_only_ser_commit (m : Compress) (x : Commit F {x // p1 x = true}) :
    (Commit.codec cF (c1.only p1)).ser m x = (Commit.codec cF c1).ser m (x.on (·.1)) := by
  simp only [Commit.codec, structCodec, prodCodec, Commit.on, vecCodec, List.length_map, List.map_map]
  rfl

/-- C110: and both write the same bytes. -/
theorem C110_only_ser_crs (m : Compress) (x : CRS {x // p1 x = true} {x // p2 x = true} GT) :
    (CRS.codec (c1.only p1) (c2.only p2) cT).ser m x = (CRS.codec c1 c2 cT).ser m (x.on (·.1) (·.1)) := by
  simp only [CRS.codec, structCodec, prodCodec, CRS.on, vecCodec, List.length_map, List.map_map]
  rfl

/-- C110: and both write the same bytes. -/
theorem C110_only_ser_proof (m : Compress) (x : EquProof F {x // p1 x = true} {x // p2 x = true}) :
    (EquProof.codec cF (c1.only p1) (c2.only p2)).ser m x = (EquProof.codec cF c1 c2).ser m (x.on (·.1) (·.1)) := by
  simp only [EquProof.codec, structCodec, prodCodec, EquProof.on, vecCodec, List.length_map, List.map_map]
  rfl

/-- C110: and both write the same bytes. -/
theorem C110_only_ser_ppe (m : Compress) (x : PPE F {x // p1 x = true} {x // p2 x = true} GT) :
    (PPE.codec cF (c1.only p1) (c2.only p2) cT).ser m x = (PPE.codec cF c1 c2 cT).ser m (x.on (·.1) (·.1)) := by
  simp only [PPE.codec, structCodec, prodCodec, PPE.on, vecCodec, List.length_map, List.map_map]
  rfl

/-- C110: and both write the same bytes. -/
theorem C110_only_ser_msmeg1 (m : Compress) (x : MSMEG1 F {x // p1 x = true}) :
    (MSMEG1.codec cF (c1.only p1)).ser m x = (MSMEG1.codec cF c1).ser m (x.on (·.1)) := by
  simp only [MSMEG1.codec, structCodec, prodCodec, MSMEG1.on, vecCodec, List.length_map, List.map_map]
  rfl

/-- C110: and both write the same bytes. -/
theorem C110_only_ser_msmeg2 (m : Compress) (x : MSMEG2 F {x // p2 x = true}) :
    (MSMEG2.codec cF (c2.only p2)).ser m x = (MSMEG2.codec cF c2).ser m (x.on (·.1)) := by
  simp only [MSMEG2.codec, structCodec, prodCodec, MSMEG2.on, vecCodec, List.length_map, List.map_map]
  rfl

end transfer

/-! ### A concrete curve

`y² = x³ + 1` over the field of 7 elements has 12 points; those with `x = 0` and the identity are the subgroup of order 3, the points
with `y = 0` are those of order 2. Three bits are enough for a coordinate, so that the flags fit in the same byte. -/

namespace Ex

def fp7 : FieldCodec K := fpCodec 7 1 1

theorem fp7_lawful : fp7.Lawful := (C110_fp (by norm_num) (by norm_num)).1

/-- A modulus of two bytes; the flags take no third one. -/
example : (fpCodec 257 2 2).Lawful := (C110_fp (by norm_num) (by norm_num)).1

/-- A modulus of eight bits; the flags take a second byte. -/
example : (fpCodec 251 1 2).Lawful := (C110_fp (by norm_num) (by norm_num)).1

example : (quadCodec fp7 (C := K × K) id id).Lawful := C110_quad fp7_lawful id id (fun _ => rfl) fun _ => rfl

/-- A tower of the shape of the target field of BLS12-381. -/
example : (quadCodec (cubicCodec (quadCodec fp7 (C := K × K) id id) (C := (K × K) × (K × K) × (K × K)) id id)
    (C := ((K × K) × (K × K) × (K × K)) × ((K × K) × (K × K) × (K × K))) id id).Lawful :=
  C110_quad (C110_cubic (C110_quad fp7_lawful id id (fun _ => rfl) fun _ => rfl) id id (fun _ => rfl) fun _ => rfl) id id (fun _ => rfl) fun _ => rfl

example := C110_output kCodec_lawful kCodec_canonical fun x => decide (x ≠ 3)

def curve7 : SWCurve K where
  a := 0
  b := 1
  sqrt v := [0, 1, 2, 3, 4, 5, 6].find? fun r : K => r * r = v
  le x y := decide (x.val ≤ y.val)
  inSubgroup P := P.infinity || decide (P.x = 0)

theorem curve7_lawful : curve7.Lawful where
  root := by decide
  complete := by decide
  total := by decide
  antisymm := by decide
  identity := by decide

/-- A point of order 3, one of order 2, one of order 6, the identity, and a pair that is not on the curve. -/
def pt3 : Affine K := ⟨0, 6, false⟩
def pt2 : Affine K := ⟨3, 0, false⟩
def pt6 : Affine K := ⟨1, 3, false⟩
def ptOff : Affine K := ⟨1, 1, false⟩

example : curve7.proper pt3 = true ∧ curve7.proper pt2 = true ∧ curve7.proper pt6 = true ∧ curve7.proper Affine.identity = true ∧
    curve7.proper ptOff = false := by decide

abbrev pCodec := curve7.codec fp7

/-- What is written. -/
example : pCodec.ser .Yes pt3 = [0x80] ∧ pCodec.ser .No pt3 = [0, 0x86] ∧ pCodec.ser .Yes Affine.identity = [0x40] := by decide

/-- The identity is read from other strings as well, and so is the point of order two. -/
example : pCodec.de .Yes .Yes [0x43] = .ok (Affine.identity, []) ∧ pCodec.de .Yes .No [3] = .ok (pt2, []) ∧
    pCodec.de .Yes .No [0x83] = .ok (pt2, []) := by decide

/-- The flag of the second coordinate is ignored in uncompressed form. -/
example : pCodec.de .No .Yes [0, 0x86] = .ok (pt3, []) ∧ pCodec.de .No .Yes [0, 6] = .ok (pt3, []) := by decide

/-- A pair that is not on the curve is read back only in uncompressed form without validation. -/
example : pCodec.de .No .No (pCodec.ser .No ptOff) = .ok (ptOff, []) ∧ pCodec.de .Yes .No (pCodec.ser .Yes ptOff) ≠ .ok (ptOff, []) ∧
    pCodec.de .No .Yes (pCodec.ser .No ptOff) = .error .invalidData := by decide

variable (m : Compress) (v : Validate) (bs rest : Bytes)

example := C110_compressed curve7_lawful fp7_lawful v bs pt3 rest
example := C110_uncompressed (E := curve7) fp7_lawful v bs pt3 rest
example : (pCodec.only curve7.proper).Lawful := (C110_only curve7_lawful fp7_lawful).1

example : pCodec.Returns .Yes pt3 ∧ pCodec.Returns .Yes pt2 ∧ ¬ pCodec.Returns .Yes ptOff ∧ pCodec.Returns .No ptOff := by
  obtain ⟨-, -, h, h'⟩ := C110_points curve7_lawful fp7_lawful
  rw [h, h, h, h']
  decide

example : pCodec.Unique .Yes pt3 ∧ ¬ pCodec.Unique .Yes pt2 ∧ ¬ pCodec.Unique .Yes Affine.identity := by
  have h := C110_unique_compressed curve7_lawful fp7_lawful
  rw [h pt3 (by decide), h pt2 (by decide), h Affine.identity (by decide)]
  decide

example : ¬ pCodec.Unique .No pt3 :=
  C110_unique_uncompressed fp7_lawful pt3 ((C110_points curve7_lawful fp7_lawful).2.2.2 pt3 |>.mpr (by decide))

example := C110_not_canonical curve7_lawful fp7_lawful curve7_lawful fp7_lawful fp7_lawful.plain kCodec_lawful

/-- A proof of points that is read from one compressed string only, and one with the identity that is not. -/
def proofPts : EquProof K (Affine K) (Affine K) := ⟨[⟨pt3, pt6⟩], [⟨pt6, pt3⟩], .Quadratic, [[2]]⟩
def proofId : EquProof K (Affine K) (Affine K) := ⟨[⟨pt3, Affine.identity⟩], [⟨pt6, pt3⟩], .Quadratic, [[2]]⟩

theorem proofPts_fits : proofPts.Fits := by simp [EquProof.Fits, FitsMat, Fits64, proofPts]
theorem proofId_fits : proofId.Fits := by simp [EquProof.Fits, FitsMat, Fits64, proofId]

theorem proofPts_proper : proofPts.Elems (fun _ => True) (fun P => curve7.proper P = true) (fun P => curve7.proper P = true) := by
  simp only [EquProof.Elems, Com.Elems, proofPts]; decide

example : (EquProof.codec kCodec pCodec pCodec).Unique .Yes proofPts ∧ ¬ (EquProof.codec kCodec pCodec pCodec).Unique .Yes proofId := by
  have h := C110_proof_compressed curve7_lawful fp7_lawful curve7_lawful fp7_lawful kCodec_lawful kCodec_canonical
  rw [h proofPts proofPts_fits proofPts_proper, h proofId proofId_fits (by simp only [EquProof.Elems, Com.Elems, proofId]; decide)]
  simp only [EquProof.Elems, Com.Elems, proofPts, proofId]; decide

example := C110_proof_uncompressed curve7_lawful fp7_lawful curve7_lawful fp7_lawful kCodec_lawful proofPts proofPts_fits proofPts_proper
  (by simp [proofPts])

theorem only7 : (pCodec.only curve7.proper).Lawful := (C110_only curve7_lawful fp7_lawful).1

theorem po : pCodec.Orderly := (C110_points curve7_lawful fp7_lawful).1

theorem po_valid : ∀ m bs P rest, pCodec.de m .Yes bs = .ok (P, rest) → curve7.proper P = true := fun m bs P rest =>
  (C110_only curve7_lawful fp7_lawful).2.2 m .Yes bs P rest (.inr rfl)

example := (C110_only_commit (p1 := curve7.proper) ko po m v bs rest).2 po_valid
example := (C110_only_crs (p1 := curve7.proper) (p2 := curve7.proper) po po ko m v bs rest).2 po_valid po_valid
example := (C110_only_proof (p1 := curve7.proper) (p2 := curve7.proper) ko po po m v bs rest).2 po_valid po_valid
example := (C110_only_ppe (p1 := curve7.proper) (p2 := curve7.proper) ko po po ko m v bs rest).2 po_valid po_valid
example := (C110_only_msmeg1 (p1 := curve7.proper) ko po m v bs rest).2 po_valid
example := (C110_only_msmeg2 (p2 := curve7.proper) ko po m v bs rest).2 po_valid

/-- With this, the results about lawful codecs are results about the codec of points, here C41 for proofs. -/
example (x : EquProof K {P // curve7.proper P = true} {P // curve7.proper P = true}) (hx : x.Fits) :
    (EquProof.codec kCodec pCodec pCodec).de m .No ((EquProof.codec kCodec pCodec pCodec).ser m (x.on (·.1) (·.1)) ++ rest) =
      .ok (x.on (·.1) (·.1), rest) := by
  rw [← C110_only_ser_proof]
  exact ((C110_only_proof (p1 := curve7.proper) (p2 := curve7.proper) ko po po m .No _ rest).1 x).mp
    (C41_proof kCodec_lawful only7 only7 m .No x hx (by simp) rest)

end Ex
end GS
