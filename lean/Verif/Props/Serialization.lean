import Verif.Lemmas.Serialize
import Verif.Props.Example

/-!
# C40 - C42, C58, C59: serialization

The codecs of field and group elements are arbitrary and assumed `Lawful` (`Verif/Spec/Serialize.lean`).
-/

namespace GS
variable {F G G1 G2 GT : Type}

/-- The tag of an equation type. -/
def EquType.tag : EquType → UInt8
  | .PairingProduct => 0
  | .MultiScalarG1 => 1
  | .MultiScalarG2 => 2
  | .Quadratic => 3

/-- C40: one byte is written, in both modes, as reported. -/
theorem C40_serialize (m : Compress) (t : EquType) :
    EquType.codec.ser m t = [t.tag] ∧ EquType.codec.size m t = 1 := by
  cases t <;> exact ⟨rfl, rfl⟩

/-- C40: what deserialization returns on input starting with a byte. -/
theorem C40_deserialize (m : Compress) (v : Validate) (b : UInt8) (rest : Bytes) :
    (∀ t, EquType.codec.de m v (b :: rest) = .ok (t, rest) ↔ b = t.tag) ∧
    (3 < b.toNat → EquType.codec.de m v (b :: rest) = .error .invalidData) ∧
    EquType.codec.de m v [] = .error .ioError := by
  have h : u8Codec.de .Yes .Yes (b :: rest) = .ok (b, rest) := by
    simp [u8Codec, readExact, ser_ok_bind, ser_pure]
  refine ⟨fun t => ?_, fun hb => ?_, rfl⟩
  · simp only [EquType.codec, h, ser_ok_bind, ser_pure]
    split_ifs with h0 h1 h2 h3
    · subst h0; cases t <;> simp [EquType.tag]
    · subst h1; cases t <;> simp [EquType.tag]
    · subst h2; cases t <;> simp [EquType.tag]
    · subst h3; cases t <;> simp [EquType.tag]
    · cases t <;> simp [EquType.tag, *]
  · simp only [EquType.codec, h, ser_ok_bind, ser_pure]
    have : ∀ k : UInt8, k.toNat ≤ 3 → b ≠ k := by rintro k hk rfl; omega
    rw [if_neg (this 0 (by decide)), if_neg (this 1 (by decide)), if_neg (this 2 (by decide)), if_neg (this 3 (by decide))]

/-- C40: deserialization succeeds exactly on input starting with the tag of the returned value, and consumes that byte. -/
theorem C40_deserialize_iff (m : Compress) (v : Validate) (bs : Bytes) (t : EquType) (rest : Bytes) :
    EquType.codec.de m v bs = .ok (t, rest) ↔ bs = t.tag :: rest := by
  cases bs with
  | nil => simp [(C40_deserialize m v 0 []).2.2]
  | cons b bs =>
    constructor
    · intro h
      have hr : bs = rest := by
        simp only [EquType.codec, u8Codec, ser_bind_ok, ser_pure, Prod.exists, Except.ok.injEq, Prod.mk.injEq] at h
        obtain ⟨a, b1, ⟨x, y, h1, h2, h3⟩, h4⟩ := h
        obtain ⟨h5, h6⟩ := readExact_iff.mp h1
        obtain ⟨z, rfl⟩ := List.length_eq_one_iff.mp h6
        obtain ⟨_, rfl⟩ : _ ∧ _ := by simpa using h5
        subst h3
        split_ifs at h4 <;> simp_all
      subst hr
      rw [((C40_deserialize m v b bs).1 t).mp h]
    · rintro h
      obtain ⟨rfl, rfl⟩ : _ ∧ _ := by simpa using h
      exact ((C40_deserialize m v _ bs).1 t).mpr rfl

example : EquType.codec.de .Yes .No [2, 7, 9] = .ok (.MultiScalarG2, [7, 9]) := rfl
example : EquType.codec.de .No .Yes [4, 7] = .error .invalidData := rfl

theorem equType_good : EquType.codec.Good (fun _ => True) (fun _ => True) where
  round m v t rest _ _ := (C40_deserialize_iff m v _ t rest).mpr (by rw [(C40_serialize m t).1]; rfl)
  size m t := by rw [(C40_serialize m t).1]; rfl
  stream m v bs t rest h := by
    have := (C40_deserialize_iff m v bs t rest).mp h
    exact ⟨trivial, [t.tag], this, fun rest' => (C40_deserialize_iff m v _ t rest').mpr rfl⟩
  validate m bs t rest := by rw [C40_deserialize_iff, C40_deserialize_iff]; simp
  check _ := by simp [EquType.codec]
  batch l := by simp [EquType.codec, loopCheck_ok]

theorem equType_canonical : EquType.codec.Canonical := by
  intro m v bs t rest h
  rw [(C40_deserialize_iff m v bs t rest).mp h, (C40_serialize m t).1]
  rfl

/-! ### The structures -/

theorem mat_good {c : Codec F} (h : c.Lawful) : (vecCodec (vecCodec c)).Good FitsMat (fun m => ∀ r ∈ m, ∀ a ∈ r, c.Valid a) := by
  have := vec_good (vec_good h.good)
  refine ⟨fun m v x rest hf => this.round m v x rest ⟨hf.1, fun r hr => ⟨hf.2 r hr, by simp⟩⟩, this.size, ?_, this.validate,
    this.check, this.batch⟩
  intro m v bs x rest hd
  obtain ⟨f, k⟩ := this.stream m v bs x rest hd
  exact ⟨⟨f.1, fun r hr => (f.2 r hr).1⟩, k⟩

theorem lst_good {α : Type} {c : Codec α} {fits valid : α → Prop} (h : c.Good fits valid) (hf : ∀ x, fits x) :
    (vecCodec c).Good Fits64 (fun l => ∀ a ∈ l, valid a) := by
  have := vec_good h
  refine ⟨fun m v x rest hx => this.round m v x rest ⟨hx, fun a _ => hf a⟩, this.size, ?_, this.validate, this.check, this.batch⟩
  intro m v bs x rest hd
  obtain ⟨f, k⟩ := this.stream m v bs x rest hd
  exact ⟨f.1, k⟩

theorem com_good {c : Codec G} (h : c.Lawful) : (Com.codec c).Good (fun _ => True) (Com.Elems c.Valid) :=
  struct_good (fun _ => rfl) (fun _ => rfl) (prod_good h.good h.good) (by simp) (by simp [Com.Elems])

theorem com_canonical {c : Codec G} (h : c.Canonical) : (Com.codec c).Canonical :=
  struct_canonical (fun _ => rfl) (fun _ => rfl) (prod_canonical h h)

theorem commit_good {cF : Codec F} {c : Codec G} (hF : cF.Lawful) (h : c.Lawful) :
    (Commit.codec cF c).Good Commit.Fits (Commit.Elems cF.Valid c.Valid) :=
  struct_good (fun _ => rfl) (fun _ => rfl) (prod_good (lst_good (com_good h) fun _ => trivial) (mat_good hF))
    (by simp [Commit.Fits]) (by simp [Commit.Elems])

theorem commit_canonical {cF : Codec F} {c : Codec G} (hF : cF.Canonical) (h : c.Canonical) : (Commit.codec cF c).Canonical :=
  struct_canonical (fun _ => rfl) (fun _ => rfl) (prod_canonical (vec_canonical (com_canonical h)) (vec_canonical (vec_canonical hF)))

theorem crs_good {c1 : Codec G1} {c2 : Codec G2} {cT : Codec GT} (h1 : c1.Lawful) (h2 : c2.Lawful) (hT : cT.Lawful) :
    (CRS.codec c1 c2 cT).Good CRS.Fits (CRS.Elems c1.Valid c2.Valid cT.Valid) :=
  struct_good (fun _ => rfl) (fun _ => rfl) (prod_good (lst_good (com_good h1) fun _ => trivial) (prod_good (lst_good (com_good h2) fun _ => trivial) (prod_good h1.good (prod_good h2.good hT.good))))
    (by simp [CRS.Fits]) (by simp [CRS.Elems])

theorem crs_canonical {c1 : Codec G1} {c2 : Codec G2} {cT : Codec GT} (h1 : c1.Canonical) (h2 : c2.Canonical) (hT : cT.Canonical) : (CRS.codec c1 c2 cT).Canonical :=
  struct_canonical (fun _ => rfl) (fun _ => rfl) (prod_canonical (vec_canonical (com_canonical h1)) (prod_canonical (vec_canonical (com_canonical h2)) (prod_canonical h1 (prod_canonical h2 hT))))

theorem proof_good {cF : Codec F} {c1 : Codec G1} {c2 : Codec G2} (hF : cF.Lawful) (h1 : c1.Lawful) (h2 : c2.Lawful) :
    (EquProof.codec cF c1 c2).Good EquProof.Fits (EquProof.Elems cF.Valid c1.Valid c2.Valid) :=
  struct_good (fun _ => rfl) (fun _ => rfl) (prod_good (lst_good (com_good h2) fun _ => trivial) (prod_good (lst_good (com_good h1) fun _ => trivial) (prod_good equType_good (mat_good hF))))
    (by simp [EquProof.Fits]) (by simp [EquProof.Elems])

theorem proof_canonical {cF : Codec F} {c1 : Codec G1} {c2 : Codec G2} (hF : cF.Canonical) (h1 : c1.Canonical) (h2 : c2.Canonical) : (EquProof.codec cF c1 c2).Canonical :=
  struct_canonical (fun _ => rfl) (fun _ => rfl) (prod_canonical (vec_canonical (com_canonical h2)) (prod_canonical (vec_canonical (com_canonical h1)) (prod_canonical equType_canonical (vec_canonical (vec_canonical hF)))))

theorem ppe_good {cF : Codec F} {c1 : Codec G1} {c2 : Codec G2} {cT : Codec GT} (hF : cF.Lawful) (h1 : c1.Lawful) (h2 : c2.Lawful) (hT : cT.Lawful) :
    (PPE.codec cF c1 c2 cT).Good PPE.Fits (PPE.Elems cF.Valid c1.Valid c2.Valid cT.Valid) :=
  struct_good (fun _ => rfl) (fun _ => rfl) (prod_good (lst_good h1.good fun _ => trivial) (prod_good (lst_good h2.good fun _ => trivial) (prod_good (mat_good hF) hT.good)))
    (by simp [PPE.Fits]) (by simp [PPE.Elems])

theorem ppe_canonical {cF : Codec F} {c1 : Codec G1} {c2 : Codec G2} {cT : Codec GT} (hF : cF.Canonical) (h1 : c1.Canonical) (h2 : c2.Canonical) (hT : cT.Canonical) : (PPE.codec cF c1 c2 cT).Canonical :=
  struct_canonical (fun _ => rfl) (fun _ => rfl) (prod_canonical (vec_canonical h1) (prod_canonical (vec_canonical h2) (prod_canonical (vec_canonical (vec_canonical hF)) hT)))

theorem msmeg1_good {cF : Codec F} {c1 : Codec G1} (hF : cF.Lawful) (h1 : c1.Lawful) :
    (MSMEG1.codec cF c1).Good MSMEG1.Fits (MSMEG1.Elems cF.Valid c1.Valid) :=
  struct_good (fun _ => rfl) (fun _ => rfl) (prod_good (lst_good h1.good fun _ => trivial) (prod_good (lst_good hF.good fun _ => trivial) (prod_good (mat_good hF) h1.good)))
    (by simp [MSMEG1.Fits]) (by simp [MSMEG1.Elems])

theorem msmeg1_canonical {cF : Codec F} {c1 : Codec G1} (hF : cF.Canonical) (h1 : c1.Canonical) : (MSMEG1.codec cF c1).Canonical :=
  struct_canonical (fun _ => rfl) (fun _ => rfl) (prod_canonical (vec_canonical h1) (prod_canonical (vec_canonical hF) (prod_canonical (vec_canonical (vec_canonical hF)) h1)))

theorem msmeg2_good {cF : Codec F} {c2 : Codec G2} (hF : cF.Lawful) (h2 : c2.Lawful) :
    (MSMEG2.codec cF c2).Good MSMEG2.Fits (MSMEG2.Elems cF.Valid c2.Valid) :=
  struct_good (fun _ => rfl) (fun _ => rfl) (prod_good (lst_good hF.good fun _ => trivial) (prod_good (lst_good h2.good fun _ => trivial) (prod_good (mat_good hF) h2.good)))
    (by simp [MSMEG2.Fits]) (by simp [MSMEG2.Elems])

theorem msmeg2_canonical {cF : Codec F} {c2 : Codec G2} (hF : cF.Canonical) (h2 : c2.Canonical) : (MSMEG2.codec cF c2).Canonical :=
  struct_canonical (fun _ => rfl) (fun _ => rfl) (prod_canonical (vec_canonical hF) (prod_canonical (vec_canonical h2) (prod_canonical (vec_canonical (vec_canonical hF)) h2)))

theorem quad_good {cF : Codec F} (hF : cF.Lawful) :
    (QuadEqu.codec cF).Good QuadEqu.Fits (QuadEqu.Elems cF.Valid) :=
  struct_good (fun _ => rfl) (fun _ => rfl) (prod_good (lst_good hF.good fun _ => trivial) (prod_good (lst_good hF.good fun _ => trivial) (prod_good (mat_good hF) hF.good)))
    (by simp [QuadEqu.Fits]) (by simp [QuadEqu.Elems])

theorem quad_canonical {cF : Codec F} (hF : cF.Canonical) : (QuadEqu.codec cF).Canonical :=
  struct_canonical (fun _ => rfl) (fun _ => rfl) (prod_canonical (vec_canonical hF) (prod_canonical (vec_canonical hF) (prod_canonical (vec_canonical (vec_canonical hF)) hF)))

/-! ### C41 -/

/-- C41: a written value is read back, whatever follows it, and nothing more is read. -/
theorem C41_com {c : Codec G} (h : c.Lawful)
    (m : Compress) (v : Validate) (x : Com G) (hv : v = .Yes → x.Elems c.Valid) (rest : Bytes) :
    (Com.codec c).de m v ((Com.codec c).ser m x ++ rest) = .ok (x, rest) :=
  (com_good h).round m v x rest trivial hv

/-- C41: a written value is read back, whatever follows it, and nothing more is read. -/
theorem C41_commit {cF : Codec F} {c : Codec G} (hF : cF.Lawful) (h : c.Lawful)
    (m : Compress) (v : Validate) (x : Commit F G) (hx : x.Fits) (hv : v = .Yes → x.Elems cF.Valid c.Valid) (rest : Bytes) :
    (Commit.codec cF c).de m v ((Commit.codec cF c).ser m x ++ rest) = .ok (x, rest) :=
  (commit_good hF h).round m v x rest hx hv

/-- C41: a written value is read back, whatever follows it, and nothing more is read. -/
theorem C41_crs {c1 : Codec G1} {c2 : Codec G2} {cT : Codec GT} (h1 : c1.Lawful) (h2 : c2.Lawful) (hT : cT.Lawful)
    (m : Compress) (v : Validate) (x : CRS G1 G2 GT) (hx : x.Fits) (hv : v = .Yes → x.Elems c1.Valid c2.Valid cT.Valid) (rest : Bytes) :
    (CRS.codec c1 c2 cT).de m v ((CRS.codec c1 c2 cT).ser m x ++ rest) = .ok (x, rest) :=
  (crs_good h1 h2 hT).round m v x rest hx hv

/-- C41: a written value is read back, whatever follows it, and nothing more is read. -/
theorem C41_proof {cF : Codec F} {c1 : Codec G1} {c2 : Codec G2} (hF : cF.Lawful) (h1 : c1.Lawful) (h2 : c2.Lawful)
    (m : Compress) (v : Validate) (x : EquProof F G1 G2) (hx : x.Fits) (hv : v = .Yes → x.Elems cF.Valid c1.Valid c2.Valid) (rest : Bytes) :
    (EquProof.codec cF c1 c2).de m v ((EquProof.codec cF c1 c2).ser m x ++ rest) = .ok (x, rest) :=
  (proof_good hF h1 h2).round m v x rest hx hv

/-- C41: a written value is read back, whatever follows it, and nothing more is read. -/
theorem C41_ppe {cF : Codec F} {c1 : Codec G1} {c2 : Codec G2} {cT : Codec GT} (hF : cF.Lawful) (h1 : c1.Lawful) (h2 : c2.Lawful) (hT : cT.Lawful)
    (m : Compress) (v : Validate) (x : PPE F G1 G2 GT) (hx : x.Fits) (hv : v = .Yes → x.Elems cF.Valid c1.Valid c2.Valid cT.Valid) (rest : Bytes) :
    (PPE.codec cF c1 c2 cT).de m v ((PPE.codec cF c1 c2 cT).ser m x ++ rest) = .ok (x, rest) :=
  (ppe_good hF h1 h2 hT).round m v x rest hx hv

/-- C41: a written value is read back, whatever follows it, and nothing more is read. -/
theorem C41_msmeg1 {cF : Codec F} {c1 : Codec G1} (hF : cF.Lawful) (h1 : c1.Lawful)
    (m : Compress) (v : Validate) (x : MSMEG1 F G1) (hx : x.Fits) (hv : v = .Yes → x.Elems cF.Valid c1.Valid) (rest : Bytes) :
    (MSMEG1.codec cF c1).de m v ((MSMEG1.codec cF c1).ser m x ++ rest) = .ok (x, rest) :=
  (msmeg1_good hF h1).round m v x rest hx hv

/-- C41: a written value is read back, whatever follows it, and nothing more is read. -/
theorem C41_msmeg2 {cF : Codec F} {c2 : Codec G2} (hF : cF.Lawful) (h2 : c2.Lawful)
    (m : Compress) (v : Validate) (x : MSMEG2 F G2) (hx : x.Fits) (hv : v = .Yes → x.Elems cF.Valid c2.Valid) (rest : Bytes) :
    (MSMEG2.codec cF c2).de m v ((MSMEG2.codec cF c2).ser m x ++ rest) = .ok (x, rest) :=
  (msmeg2_good hF h2).round m v x rest hx hv

/-- C41: a written value is read back, whatever follows it, and nothing more is read. -/
theorem C41_quad {cF : Codec F} (hF : cF.Lawful)
    (m : Compress) (v : Validate) (x : QuadEqu F) (hx : x.Fits) (hv : v = .Yes → x.Elems cF.Valid) (rest : Bytes) :
    (QuadEqu.codec cF).de m v ((QuadEqu.codec cF).ser m x ++ rest) = .ok (x, rest) :=
  (quad_good hF).round m v x rest hx hv

/-! ### C42 -/

/-- C42: no serialization is the beginning of another one, all have the reported size, and truncated ones are rejected. -/
theorem C42_com {c : Codec G} (h : c.Lawful)
    (m : Compress) (x y : Com G) :
    (∀ rest rest', (Com.codec c).ser m x ++ rest = (Com.codec c).ser m y ++ rest' → x = y ∧ rest = rest') ∧
    ((Com.codec c).ser m x).length = (Com.codec c).size m x ∧
    ∀ v b t, t ≠ [] → (Com.codec c).ser m x = b ++ t → ∃ err, (Com.codec c).de m v b = .error err :=
  have g := (com_good h)
  ⟨fun _ _ he => g.prefix_free trivial trivial he, g.size m x, fun _ _ _ ht he => g.truncated trivial ht he⟩

/-- C42: no serialization is the beginning of another one, all have the reported size, and truncated ones are rejected. -/
theorem C42_commit {cF : Codec F} {c : Codec G} (hF : cF.Lawful) (h : c.Lawful)
    (m : Compress) (x y : Commit F G) (hx : x.Fits) (hy : y.Fits) :
    (∀ rest rest', (Commit.codec cF c).ser m x ++ rest = (Commit.codec cF c).ser m y ++ rest' → x = y ∧ rest = rest') ∧
    ((Commit.codec cF c).ser m x).length = (Commit.codec cF c).size m x ∧
    ∀ v b t, t ≠ [] → (Commit.codec cF c).ser m x = b ++ t → ∃ err, (Commit.codec cF c).de m v b = .error err :=
  have g := (commit_good hF h)
  ⟨fun _ _ he => g.prefix_free hx hy he, g.size m x, fun _ _ _ ht he => g.truncated hx ht he⟩

/-- C42: no serialization is the beginning of another one, all have the reported size, and truncated ones are rejected. -/
theorem C42_crs {c1 : Codec G1} {c2 : Codec G2} {cT : Codec GT} (h1 : c1.Lawful) (h2 : c2.Lawful) (hT : cT.Lawful)
    (m : Compress) (x y : CRS G1 G2 GT) (hx : x.Fits) (hy : y.Fits) :
    (∀ rest rest', (CRS.codec c1 c2 cT).ser m x ++ rest = (CRS.codec c1 c2 cT).ser m y ++ rest' → x = y ∧ rest = rest') ∧
    ((CRS.codec c1 c2 cT).ser m x).length = (CRS.codec c1 c2 cT).size m x ∧
    ∀ v b t, t ≠ [] → (CRS.codec c1 c2 cT).ser m x = b ++ t → ∃ err, (CRS.codec c1 c2 cT).de m v b = .error err :=
  have g := (crs_good h1 h2 hT)
  ⟨fun _ _ he => g.prefix_free hx hy he, g.size m x, fun _ _ _ ht he => g.truncated hx ht he⟩

/-- C42: no serialization is the beginning of another one, all have the reported size, and truncated ones are rejected. -/
theorem C42_proof {cF : Codec F} {c1 : Codec G1} {c2 : Codec G2} (hF : cF.Lawful) (h1 : c1.Lawful) (h2 : c2.Lawful)
    (m : Compress) (x y : EquProof F G1 G2) (hx : x.Fits) (hy : y.Fits) :
    (∀ rest rest', (EquProof.codec cF c1 c2).ser m x ++ rest = (EquProof.codec cF c1 c2).ser m y ++ rest' → x = y ∧ rest = rest') ∧
    ((EquProof.codec cF c1 c2).ser m x).length = (EquProof.codec cF c1 c2).size m x ∧
    ∀ v b t, t ≠ [] → (EquProof.codec cF c1 c2).ser m x = b ++ t → ∃ err, (EquProof.codec cF c1 c2).de m v b = .error err :=
  have g := (proof_good hF h1 h2)
  ⟨fun _ _ he => g.prefix_free hx hy he, g.size m x, fun _ _ _ ht he => g.truncated hx ht he⟩

/-- C42: no serialization is the beginning of another one, all have the reported size, and truncated ones are rejected. -/
theorem C42_ppe {cF : Codec F} {c1 : Codec G1} {c2 : Codec G2} {cT : Codec GT} (hF : cF.Lawful) (h1 : c1.Lawful) (h2 : c2.Lawful) (hT : cT.Lawful)
    (m : Compress) (x y : PPE F G1 G2 GT) (hx : x.Fits) (hy : y.Fits) :
    (∀ rest rest', (PPE.codec cF c1 c2 cT).ser m x ++ rest = (PPE.codec cF c1 c2 cT).ser m y ++ rest' → x = y ∧ rest = rest') ∧
    ((PPE.codec cF c1 c2 cT).ser m x).length = (PPE.codec cF c1 c2 cT).size m x ∧
    ∀ v b t, t ≠ [] → (PPE.codec cF c1 c2 cT).ser m x = b ++ t → ∃ err, (PPE.codec cF c1 c2 cT).de m v b = .error err :=
  have g := (ppe_good hF h1 h2 hT)
  ⟨fun _ _ he => g.prefix_free hx hy he, g.size m x, fun _ _ _ ht he => g.truncated hx ht he⟩

/-- C42: no serialization is the beginning of another one, all have the reported size, and truncated ones are rejected. -/
theorem C42_msmeg1 {cF : Codec F} {c1 : Codec G1} (hF : cF.Lawful) (h1 : c1.Lawful)
    (m : Compress) (x y : MSMEG1 F G1) (hx : x.Fits) (hy : y.Fits) :
    (∀ rest rest', (MSMEG1.codec cF c1).ser m x ++ rest = (MSMEG1.codec cF c1).ser m y ++ rest' → x = y ∧ rest = rest') ∧
    ((MSMEG1.codec cF c1).ser m x).length = (MSMEG1.codec cF c1).size m x ∧
    ∀ v b t, t ≠ [] → (MSMEG1.codec cF c1).ser m x = b ++ t → ∃ err, (MSMEG1.codec cF c1).de m v b = .error err :=
  have g := (msmeg1_good hF h1)
  ⟨fun _ _ he => g.prefix_free hx hy he, g.size m x, fun _ _ _ ht he => g.truncated hx ht he⟩

/-- C42: no serialization is the beginning of another one, all have the reported size, and truncated ones are rejected. -/
theorem C42_msmeg2 {cF : Codec F} {c2 : Codec G2} (hF : cF.Lawful) (h2 : c2.Lawful)
    (m : Compress) (x y : MSMEG2 F G2) (hx : x.Fits) (hy : y.Fits) :
    (∀ rest rest', (MSMEG2.codec cF c2).ser m x ++ rest = (MSMEG2.codec cF c2).ser m y ++ rest' → x = y ∧ rest = rest') ∧
    ((MSMEG2.codec cF c2).ser m x).length = (MSMEG2.codec cF c2).size m x ∧
    ∀ v b t, t ≠ [] → (MSMEG2.codec cF c2).ser m x = b ++ t → ∃ err, (MSMEG2.codec cF c2).de m v b = .error err :=
  have g := (msmeg2_good hF h2)
  ⟨fun _ _ he => g.prefix_free hx hy he, g.size m x, fun _ _ _ ht he => g.truncated hx ht he⟩

/-- C42: no serialization is the beginning of another one, all have the reported size, and truncated ones are rejected. -/
theorem C42_quad {cF : Codec F} (hF : cF.Lawful)
    (m : Compress) (x y : QuadEqu F) (hx : x.Fits) (hy : y.Fits) :
    (∀ rest rest', (QuadEqu.codec cF).ser m x ++ rest = (QuadEqu.codec cF).ser m y ++ rest' → x = y ∧ rest = rest') ∧
    ((QuadEqu.codec cF).ser m x).length = (QuadEqu.codec cF).size m x ∧
    ∀ v b t, t ≠ [] → (QuadEqu.codec cF).ser m x = b ++ t → ∃ err, (QuadEqu.codec cF).de m v b = .error err :=
  have g := (quad_good hF)
  ⟨fun _ _ he => g.prefix_free hx hy he, g.size m x, fun _ _ _ ht he => g.truncated hx ht he⟩

/-! ### C58 -/

/-- C58: if element codecs are canonical, the bytes read are the serialization of the value read. -/
theorem C58_com {c : Codec G} (h : c.Canonical)
    (m : Compress) (v : Validate) (bs rest : Bytes) (x : Com G)
    (hd : (Com.codec c).de m v bs = .ok (x, rest)) : bs = (Com.codec c).ser m x ++ rest :=
  (com_canonical h) m v bs x rest hd

/-- C58: if element codecs are canonical, the bytes read are the serialization of the value read. -/
theorem C58_commit {cF : Codec F} {c : Codec G} (hF : cF.Canonical) (h : c.Canonical)
    (m : Compress) (v : Validate) (bs rest : Bytes) (x : Commit F G)
    (hd : (Commit.codec cF c).de m v bs = .ok (x, rest)) : bs = (Commit.codec cF c).ser m x ++ rest :=
  (commit_canonical hF h) m v bs x rest hd

/-- C58: if element codecs are canonical, the bytes read are the serialization of the value read. -/
theorem C58_crs {c1 : Codec G1} {c2 : Codec G2} {cT : Codec GT} (h1 : c1.Canonical) (h2 : c2.Canonical) (hT : cT.Canonical)
    (m : Compress) (v : Validate) (bs rest : Bytes) (x : CRS G1 G2 GT)
    (hd : (CRS.codec c1 c2 cT).de m v bs = .ok (x, rest)) : bs = (CRS.codec c1 c2 cT).ser m x ++ rest :=
  (crs_canonical h1 h2 hT) m v bs x rest hd

/-- C58: if element codecs are canonical, the bytes read are the serialization of the value read. -/
theorem C58_proof {cF : Codec F} {c1 : Codec G1} {c2 : Codec G2} (hF : cF.Canonical) (h1 : c1.Canonical) (h2 : c2.Canonical)
    (m : Compress) (v : Validate) (bs rest : Bytes) (x : EquProof F G1 G2)
    (hd : (EquProof.codec cF c1 c2).de m v bs = .ok (x, rest)) : bs = (EquProof.codec cF c1 c2).ser m x ++ rest :=
  (proof_canonical hF h1 h2) m v bs x rest hd

/-- C58: if element codecs are canonical, the bytes read are the serialization of the value read. -/
theorem C58_ppe {cF : Codec F} {c1 : Codec G1} {c2 : Codec G2} {cT : Codec GT} (hF : cF.Canonical) (h1 : c1.Canonical) (h2 : c2.Canonical) (hT : cT.Canonical)
    (m : Compress) (v : Validate) (bs rest : Bytes) (x : PPE F G1 G2 GT)
    (hd : (PPE.codec cF c1 c2 cT).de m v bs = .ok (x, rest)) : bs = (PPE.codec cF c1 c2 cT).ser m x ++ rest :=
  (ppe_canonical hF h1 h2 hT) m v bs x rest hd

/-- C58: if element codecs are canonical, the bytes read are the serialization of the value read. -/
theorem C58_msmeg1 {cF : Codec F} {c1 : Codec G1} (hF : cF.Canonical) (h1 : c1.Canonical)
    (m : Compress) (v : Validate) (bs rest : Bytes) (x : MSMEG1 F G1)
    (hd : (MSMEG1.codec cF c1).de m v bs = .ok (x, rest)) : bs = (MSMEG1.codec cF c1).ser m x ++ rest :=
  (msmeg1_canonical hF h1) m v bs x rest hd

/-- C58: if element codecs are canonical, the bytes read are the serialization of the value read. -/
theorem C58_msmeg2 {cF : Codec F} {c2 : Codec G2} (hF : cF.Canonical) (h2 : c2.Canonical)
    (m : Compress) (v : Validate) (bs rest : Bytes) (x : MSMEG2 F G2)
    (hd : (MSMEG2.codec cF c2).de m v bs = .ok (x, rest)) : bs = (MSMEG2.codec cF c2).ser m x ++ rest :=
  (msmeg2_canonical hF h2) m v bs x rest hd

/-- C58: if element codecs are canonical, the bytes read are the serialization of the value read. -/
theorem C58_quad {cF : Codec F} (hF : cF.Canonical)
    (m : Compress) (v : Validate) (bs rest : Bytes) (x : QuadEqu F)
    (hd : (QuadEqu.codec cF).de m v bs = .ok (x, rest)) : bs = (QuadEqu.codec cF).ser m x ++ rest :=
  (quad_canonical hF) m v bs x rest hd

/-! ### C59 -/

/-- C59: deserialization with validation accepts exactly the input accepted without, provided that every field and group element in the value is valid; so does `check`. -/
theorem C59_com {c : Codec G} (h : c.Lawful)
    (m : Compress) (bs rest : Bytes) (x : Com G) :
    ((Com.codec c).de m .Yes bs = .ok (x, rest) ↔ (Com.codec c).de m .No bs = .ok (x, rest) ∧ x.Elems c.Valid) ∧
    ((Com.codec c).check x = .ok () ↔ x.Elems c.Valid) :=
  ⟨(com_good h).validate m bs x rest, (com_good h).check x⟩

/-- C59: deserialization with validation accepts exactly the input accepted without, provided that every field and group element in the value is valid; so does `check`. -/
theorem C59_commit {cF : Codec F} {c : Codec G} (hF : cF.Lawful) (h : c.Lawful)
    (m : Compress) (bs rest : Bytes) (x : Commit F G) :
    ((Commit.codec cF c).de m .Yes bs = .ok (x, rest) ↔ (Commit.codec cF c).de m .No bs = .ok (x, rest) ∧ x.Elems cF.Valid c.Valid) ∧
    ((Commit.codec cF c).check x = .ok () ↔ x.Elems cF.Valid c.Valid) :=
  ⟨(commit_good hF h).validate m bs x rest, (commit_good hF h).check x⟩

/-- C59: deserialization with validation accepts exactly the input accepted without, provided that every field and group element in the value is valid; so does `check`. -/
theorem C59_crs {c1 : Codec G1} {c2 : Codec G2} {cT : Codec GT} (h1 : c1.Lawful) (h2 : c2.Lawful) (hT : cT.Lawful)
    (m : Compress) (bs rest : Bytes) (x : CRS G1 G2 GT) :
    ((CRS.codec c1 c2 cT).de m .Yes bs = .ok (x, rest) ↔ (CRS.codec c1 c2 cT).de m .No bs = .ok (x, rest) ∧ x.Elems c1.Valid c2.Valid cT.Valid) ∧
    ((CRS.codec c1 c2 cT).check x = .ok () ↔ x.Elems c1.Valid c2.Valid cT.Valid) :=
  ⟨(crs_good h1 h2 hT).validate m bs x rest, (crs_good h1 h2 hT).check x⟩

/-- C59: deserialization with validation accepts exactly the input accepted without, provided that every field and group element in the value is valid; so does `check`. -/
theorem C59_proof {cF : Codec F} {c1 : Codec G1} {c2 : Codec G2} (hF : cF.Lawful) (h1 : c1.Lawful) (h2 : c2.Lawful)
    (m : Compress) (bs rest : Bytes) (x : EquProof F G1 G2) :
    ((EquProof.codec cF c1 c2).de m .Yes bs = .ok (x, rest) ↔ (EquProof.codec cF c1 c2).de m .No bs = .ok (x, rest) ∧ x.Elems cF.Valid c1.Valid c2.Valid) ∧
    ((EquProof.codec cF c1 c2).check x = .ok () ↔ x.Elems cF.Valid c1.Valid c2.Valid) :=
  ⟨(proof_good hF h1 h2).validate m bs x rest, (proof_good hF h1 h2).check x⟩

/-- C59: deserialization with validation accepts exactly the input accepted without, provided that every field and group element in the value is valid; so does `check`. -/
theorem C59_ppe {cF : Codec F} {c1 : Codec G1} {c2 : Codec G2} {cT : Codec GT} (hF : cF.Lawful) (h1 : c1.Lawful) (h2 : c2.Lawful) (hT : cT.Lawful)
    (m : Compress) (bs rest : Bytes) (x : PPE F G1 G2 GT) :
    ((PPE.codec cF c1 c2 cT).de m .Yes bs = .ok (x, rest) ↔ (PPE.codec cF c1 c2 cT).de m .No bs = .ok (x, rest) ∧ x.Elems cF.Valid c1.Valid c2.Valid cT.Valid) ∧
    ((PPE.codec cF c1 c2 cT).check x = .ok () ↔ x.Elems cF.Valid c1.Valid c2.Valid cT.Valid) :=
  ⟨(ppe_good hF h1 h2 hT).validate m bs x rest, (ppe_good hF h1 h2 hT).check x⟩

/-- C59: deserialization with validation accepts exactly the input accepted without, provided that every field and group element in the value is valid; so does `check`. -/
theorem C59_msmeg1 {cF : Codec F} {c1 : Codec G1} (hF : cF.Lawful) (h1 : c1.Lawful)
    (m : Compress) (bs rest : Bytes) (x : MSMEG1 F G1) :
    ((MSMEG1.codec cF c1).de m .Yes bs = .ok (x, rest) ↔ (MSMEG1.codec cF c1).de m .No bs = .ok (x, rest) ∧ x.Elems cF.Valid c1.Valid) ∧
    ((MSMEG1.codec cF c1).check x = .ok () ↔ x.Elems cF.Valid c1.Valid) :=
  ⟨(msmeg1_good hF h1).validate m bs x rest, (msmeg1_good hF h1).check x⟩

/-- C59: deserialization with validation accepts exactly the input accepted without, provided that every field and group element in the value is valid; so does `check`. -/
theorem C59_msmeg2 {cF : Codec F} {c2 : Codec G2} (hF : cF.Lawful) (h2 : c2.Lawful)
    (m : Compress) (bs rest : Bytes) (x : MSMEG2 F G2) :
    ((MSMEG2.codec cF c2).de m .Yes bs = .ok (x, rest) ↔ (MSMEG2.codec cF c2).de m .No bs = .ok (x, rest) ∧ x.Elems cF.Valid c2.Valid) ∧
    ((MSMEG2.codec cF c2).check x = .ok () ↔ x.Elems cF.Valid c2.Valid) :=
  ⟨(msmeg2_good hF h2).validate m bs x rest, (msmeg2_good hF h2).check x⟩

/-- C59: deserialization with validation accepts exactly the input accepted without, provided that every field and group element in the value is valid; so does `check`. -/
theorem C59_quad {cF : Codec F} (hF : cF.Lawful)
    (m : Compress) (bs rest : Bytes) (x : QuadEqu F) :
    ((QuadEqu.codec cF).de m .Yes bs = .ok (x, rest) ↔ (QuadEqu.codec cF).de m .No bs = .ok (x, rest) ∧ x.Elems cF.Valid) ∧
    ((QuadEqu.codec cF).check x = .ok () ↔ x.Elems cF.Valid) :=
  ⟨(quad_good hF).validate m bs x rest, (quad_good hF).check x⟩

/-! ### A concrete element codec -/

namespace Ex

/-- One byte; the value 6 is written and read but invalid. -/
def kCodec : Codec K where
  ser _ x := [UInt8.ofNat x.val]
  size _ _ := 1
  de _ v bs := do
    let (b, rest) ← u8Codec.de .Yes .Yes bs
    if b.toNat < 7 then
      if v = .Yes ∧ b.toNat = 6 then .error .invalidData else pure ((b.toNat : K), rest)
    else .error .invalidData
  check x := if x = 6 then .error .invalidData else .ok ()
  batchCheck := loopCheck fun x => if x = 6 then .error .invalidData else .ok ()

theorem kCodec_byte (b : UInt8) (h : b.toNat < 7) : UInt8.ofNat ((b.toNat : K)).val = b := by
  rw [ZMod.val_natCast_of_lt h]
  simp

theorem kCodec_valid (x : K) : kCodec.Valid x ↔ x ≠ 6 := by
  simp only [Codec.Valid, kCodec]
  split_ifs with h <;> simp [h]

theorem kCodec_de (m : Compress) (v : Validate) (bs : Bytes) (x : K) (rest : Bytes) :
    kCodec.de m v bs = .ok (x, rest) ↔ bs = UInt8.ofNat x.val :: rest ∧ (v = .Yes → x ≠ 6) := by
  constructor
  · intro h
    simp only [kCodec, u8Codec, ser_bind_ok, ser_pure, Prod.exists, Except.ok.injEq, Prod.mk.injEq] at h
    obtain ⟨a, b1, ⟨y, z, h1, h2, h3⟩, h4⟩ := h
    obtain ⟨h5, h6⟩ := readExact_iff.mp h1
    obtain ⟨w, rfl⟩ := List.length_eq_one_iff.mp h6
    simp only [List.headD_cons] at h2
    subst h2 h3
    split_ifs at h4 with h7 h8
    simp only [Except.ok.injEq, Prod.mk.injEq] at h4
    obtain ⟨rfl, rfl⟩ := h4
    rw [kCodec_byte _ h7]
    refine ⟨h5, fun hv h9 => h8 ⟨hv, ?_⟩⟩
    have := congrArg ZMod.val h9
    rwa [ZMod.val_natCast_of_lt h7] at this
  · rintro ⟨rfl, hv⟩
    have h1 : u8Codec.de .Yes .Yes (UInt8.ofNat x.val :: rest) = .ok (UInt8.ofNat x.val, rest) := by
      simp [u8Codec, readExact, ser_ok_bind, ser_pure]
    have h2 : (UInt8.ofNat x.val).toNat = x.val := by
      have : x.val < 7 := ZMod.val_lt x
      rw [UInt8.toNat_ofNat', Nat.mod_eq_of_lt (by omega)]
    simp only [kCodec, h1, ser_ok_bind, h2, ser_pure]
    rw [if_pos (ZMod.val_lt x), if_neg, ZMod.natCast_val, ZMod.cast_id]
    rintro ⟨h3, h4⟩
    exact hv h3 (ZMod.val_injective 7 h4)

theorem kCodec_lawful : kCodec.Lawful where
  round m v x rest hv := (kCodec_de m v _ x rest).mpr ⟨rfl, fun h => (kCodec_valid x).mp (hv h)⟩
  size m x := rfl
  stream m v bs x rest h := by
    obtain ⟨h1, h2⟩ := (kCodec_de m v bs x rest).mp h
    exact ⟨[UInt8.ofNat x.val], h1, fun rest' => (kCodec_de m v _ x rest').mpr ⟨rfl, h2⟩⟩
  validate m bs x rest := by rw [kCodec_de, kCodec_de, kCodec_valid]; simp
  batch l := by
    induction l with
    | nil => simp [kCodec, loopCheck]
    | cons a l ih =>
      rw [List.forall_mem_cons, ← ih]
      exact unit_bind_ok

theorem kCodec_canonical : kCodec.Canonical := fun m v bs x rest h => ((kCodec_de m v bs x rest).mp h).1

/-- A proof with an invalid randomness element round-trips without validation only. -/
def proof7 : EquProof K K K := ⟨[⟨1, 2⟩], [⟨3, 4⟩, ⟨5, 0⟩], .Quadratic, [[6]]⟩

example (m : Compress) (rest : Bytes) :
    (EquProof.codec kCodec kCodec kCodec).de m .No ((EquProof.codec kCodec kCodec kCodec).ser m proof7 ++ rest) =
      .ok (proof7, rest) :=
  C41_proof kCodec_lawful kCodec_lawful kCodec_lawful m .No proof7
    (by simp [EquProof.Fits, FitsMat, Fits64, proof7]) (by simp) rest

example (m : Compress) (x : EquProof K K K) (rest : Bytes) :
    (EquProof.codec kCodec kCodec kCodec).de m .Yes ((EquProof.codec kCodec kCodec kCodec).ser m proof7) ≠ .ok (x, rest) := by
  intro h
  obtain ⟨h1, h2⟩ := (C59_proof kCodec_lawful kCodec_lawful kCodec_lawful m _ _ _).1.mp h
  have h3 := C41_proof kCodec_lawful kCodec_lawful kCodec_lawful m .No proof7
    (by simp [EquProof.Fits, FitsMat, Fits64, proof7]) (by simp) []
  rw [List.append_nil, h1] at h3
  simp only [Except.ok.injEq, Prod.mk.injEq] at h3
  rw [h3.1] at h2
  exact (kCodec_valid 6).mp (h2.2.2 [6] (by simp [proof7]) 6 (by simp)) rfl

example (m : Compress) (v : Validate) (rest : Bytes) :
    (PPE.codec kCodec kCodec kCodec kCodec).de m v ((PPE.codec kCodec kCodec kCodec kCodec).ser m ppe7 ++ rest) = .ok (ppe7, rest) :=
  C41_ppe kCodec_lawful kCodec_lawful kCodec_lawful kCodec_lawful m v ppe7
    (by simp [PPE.Fits, FitsMat, Fits64, ppe7])
    (fun _ => by simp only [PPE.Elems, kCodec_valid, ppe7]; decide) rest

/-! ### Instances: the other types -/

def commit7 : Commit K K := ⟨[⟨1, 2⟩, ⟨3, 4⟩], [[5, 0], [1, 2]]⟩

theorem commit7_fits : commit7.Fits := by simp [Commit.Fits, FitsMat, Fits64, commit7]
theorem crs7_fits : crs7.Fits := by unfold CRS.Fits Fits64; decide
theorem proof7_fits : proof7.Fits := by simp [EquProof.Fits, FitsMat, Fits64, proof7]
theorem ppe7_fits : ppe7.Fits := by simp [PPE.Fits, FitsMat, Fits64, ppe7]
theorem msm1_7_fits : msm1_7.Fits := by simp [MSMEG1.Fits, FitsMat, Fits64, msm1_7]
theorem msm2_7_fits : msm2_7.Fits := by simp [MSMEG2.Fits, FitsMat, Fits64, msm2_7]
theorem quad7_fits : quad7.Fits := by simp [QuadEqu.Fits, FitsMat, Fits64, quad7]

section
variable (m : Compress) (v : Validate) (rest : Bytes)

example := C41_com kCodec_lawful m v ⟨1, 2⟩ (fun _ => by simp only [Com.Elems, kCodec_valid]; decide) rest
example := C41_crs kCodec_lawful kCodec_lawful kCodec_lawful m .No crs7 crs7_fits (by simp) rest
example := C41_msmeg1 kCodec_lawful kCodec_lawful m v msm1_7 msm1_7_fits
  (fun _ => by simp only [MSMEG1.Elems, kCodec_valid, msm1_7]; decide) rest
example := C41_msmeg2 kCodec_lawful kCodec_lawful m v msm2_7 msm2_7_fits
  (fun _ => by simp only [MSMEG2.Elems, kCodec_valid, msm2_7]; decide) rest
example := C41_quad kCodec_lawful m v quad7 quad7_fits
  (fun _ => by simp only [QuadEqu.Elems, kCodec_valid, quad7]; decide) rest

example := C42_com kCodec_lawful m ⟨1, 2⟩ ⟨1, 3⟩
example := C42_commit kCodec_lawful kCodec_lawful m commit7 ⟨[], []⟩ commit7_fits (by simp [Commit.Fits, FitsMat, Fits64])
example := C42_crs kCodec_lawful kCodec_lawful kCodec_lawful m crs7 crs7 crs7_fits crs7_fits
example := C42_proof kCodec_lawful kCodec_lawful kCodec_lawful m proof7 proof7 proof7_fits proof7_fits
example := C42_ppe kCodec_lawful kCodec_lawful kCodec_lawful kCodec_lawful m ppe7 ppe7 ppe7_fits ppe7_fits
example := C42_msmeg1 kCodec_lawful kCodec_lawful m msm1_7 msm1_7 msm1_7_fits msm1_7_fits
example := C42_msmeg2 kCodec_lawful kCodec_lawful m msm2_7 msm2_7 msm2_7_fits msm2_7_fits
example := C42_quad kCodec_lawful m quad7 quad7 quad7_fits quad7_fits

example := C58_com kCodec_canonical m v _ rest ⟨1, 2⟩
  (C41_com kCodec_lawful m v ⟨1, 2⟩ (fun _ => by simp only [Com.Elems, kCodec_valid]; decide) rest)
example := C58_commit kCodec_canonical kCodec_canonical m .No _ rest commit7
  (C41_commit kCodec_lawful kCodec_lawful m .No commit7 commit7_fits (by simp) rest)
example := C58_crs kCodec_canonical kCodec_canonical kCodec_canonical m .No _ rest crs7
  (C41_crs kCodec_lawful kCodec_lawful kCodec_lawful m .No crs7 crs7_fits (by simp) rest)
example := C58_proof kCodec_canonical kCodec_canonical kCodec_canonical m .No _ rest proof7
  (C41_proof kCodec_lawful kCodec_lawful kCodec_lawful m .No proof7 proof7_fits (by simp) rest)
example := C58_ppe kCodec_canonical kCodec_canonical kCodec_canonical kCodec_canonical m .No _ rest ppe7
  (C41_ppe kCodec_lawful kCodec_lawful kCodec_lawful kCodec_lawful m .No ppe7 ppe7_fits (by simp) rest)
example := C58_msmeg1 kCodec_canonical kCodec_canonical m .No _ rest msm1_7
  (C41_msmeg1 kCodec_lawful kCodec_lawful m .No msm1_7 msm1_7_fits (by simp) rest)
example := C58_msmeg2 kCodec_canonical kCodec_canonical m .No _ rest msm2_7
  (C41_msmeg2 kCodec_lawful kCodec_lawful m .No msm2_7 msm2_7_fits (by simp) rest)
example := C58_quad kCodec_canonical m .No _ rest quad7 (C41_quad kCodec_lawful m .No quad7 quad7_fits (by simp) rest)

variable (bs : Bytes)

example := C59_com kCodec_lawful m bs rest ⟨1, 2⟩
example := C59_commit kCodec_lawful kCodec_lawful m bs rest commit7
example := C59_crs kCodec_lawful kCodec_lawful kCodec_lawful m bs rest crs7
example := C59_ppe kCodec_lawful kCodec_lawful kCodec_lawful kCodec_lawful m bs rest ppe7
example := C59_msmeg1 kCodec_lawful kCodec_lawful m bs rest msm1_7
example := C59_msmeg2 kCodec_lawful kCodec_lawful m bs rest msm2_7
example := C59_quad kCodec_lawful m bs rest quad7

end

end Ex
end GS
