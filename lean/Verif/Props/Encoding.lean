import Verif.Lemmas.Encoding
import Verif.Props.Serialization

/-!
# C109: the encodings of a value are put together from the encodings of its elements

With no assumption that elements are read back from what was written for them, or from nothing else.
-/

namespace GS
variable {F G G1 G2 GT : Type}

theorem equType_orderly : EquType.codec.Orderly where
  stream m v bs x rest h := (equType_good.stream m v bs x rest h).2
  validate m bs x rest := by
    rw [equType_good.validate]
    exact and_congr_right fun _ => (equType_good.check x).symm
  batch l := by
    rw [equType_good.batch]
    exact forall₂_congr fun x _ => (equType_good.check x).symm

theorem equType_enc : EquType.codec.Enc (fun _ t bs => bs = EquType.codec.ser .Yes t) (fun _ => True) where
  de m v bs x rest := by
    constructor
    · intro h
      exact ⟨EquType.codec.ser m x, equType_canonical m v bs x rest h, by cases m <;> rfl, by simp⟩
    · rintro ⟨used, rfl, rfl, -⟩
      have h := equType_good.round m v x rest trivial (by simp)
      cases m <;> exact h
  batch := equType_good.batch

theorem equType_returnsSome : EquType.codec.ReturnsSome := equType_enc.returnsSome .Quadratic fun m => by cases m <;> rfl

/-! ### Closure -/

theorem com_enc {c : Codec G} (h : c.Orderly) :
    (Com.codec c).Enc (fun m => Com.In (c.Reads m .No)) (Com.Elems c.Valid) :=
  struct_enc (fun _ => rfl) (fun _ => rfl) (prod_enc h.enc h.enc)
    (fun m x bs => by
      exact Iff.rfl) (fun x => by simp [Com.Elems])

theorem com_canonical_iff {c : Codec G} (h : c.Orderly) (s : c.ReturnsSome) : (Com.codec c).Canonical ↔ c.Canonical := by
  rw [Com.codec, struct_canonical_iff (fun _ => rfl) (fun _ => rfl), prod_canonical_iff h.enc h.enc s s]
  simp

theorem commit_enc {cF : Codec F} {c : Codec G} (hF : cF.Orderly) (h : c.Orderly) :
    (Commit.codec cF c).Enc (fun m => Commit.In (cF.Reads m .No) (c.Reads m .No)) (Commit.Elems cF.Valid c.Valid) :=
  struct_enc (fun _ => rfl) (fun _ => rfl) (prod_enc (vec_enc (com_enc h)) (vec_enc (vec_enc hF.enc)))
    (fun m x bs => by
      exact Iff.rfl) (fun x => by simp [Commit.Elems])

theorem crs_enc {c1 : Codec G1} {c2 : Codec G2} {cT : Codec GT} (h1 : c1.Orderly) (h2 : c2.Orderly) (hT : cT.Orderly) :
    (CRS.codec c1 c2 cT).Enc (fun m => CRS.In (c1.Reads m .No) (c2.Reads m .No) (cT.Reads m .No)) (CRS.Elems c1.Valid c2.Valid cT.Valid) :=
  struct_enc (fun _ => rfl) (fun _ => rfl) (prod_enc (vec_enc (com_enc h1)) (prod_enc (vec_enc (com_enc h2)) (prod_enc h1.enc (prod_enc h2.enc hT.enc))))
    (fun m x bs => by
      constructor
      · rintro ⟨b0, b1, b2, b3, b4, rfl, h0, h1, h2, h3, h4⟩; exact ⟨b0, _, rfl, h0, b1, _, rfl, h1, b2, _, rfl, h2, b3, b4, rfl, h3, h4⟩
      · rintro ⟨b0, _, rfl, h0, b1, _, rfl, h1, b2, _, rfl, h2, b3, b4, rfl, h3, h4⟩; exact ⟨b0, b1, b2, b3, b4, rfl, h0, h1, h2, h3, h4⟩) (fun x => by simp [CRS.Elems])

theorem proof_enc {cF : Codec F} {c1 : Codec G1} {c2 : Codec G2} (hF : cF.Orderly) (h1 : c1.Orderly) (h2 : c2.Orderly) :
    (EquProof.codec cF c1 c2).Enc (fun m => EquProof.In (cF.Reads m .No) (c1.Reads m .No) (c2.Reads m .No)) (EquProof.Elems cF.Valid c1.Valid c2.Valid) :=
  struct_enc (fun _ => rfl) (fun _ => rfl) (prod_enc (vec_enc (com_enc h2)) (prod_enc (vec_enc (com_enc h1)) (prod_enc equType_enc (vec_enc (vec_enc hF.enc)))))
    (fun m x bs => by
      constructor
      · rintro ⟨b0, b1, b3, rfl, h0, h1, h3⟩; exact ⟨b0, _, rfl, h0, b1, _, rfl, h1, _, b3, rfl, rfl, h3⟩
      · rintro ⟨b0, _, rfl, h0, b1, _, rfl, h1, _, b3, rfl, rfl, h3⟩; exact ⟨b0, b1, b3, rfl, h0, h1, h3⟩) (fun x => by simp [EquProof.Elems])

theorem ppe_enc {cF : Codec F} {c1 : Codec G1} {c2 : Codec G2} {cT : Codec GT} (hF : cF.Orderly) (h1 : c1.Orderly) (h2 : c2.Orderly) (hT : cT.Orderly) :
    (PPE.codec cF c1 c2 cT).Enc (fun m => PPE.In (cF.Reads m .No) (c1.Reads m .No) (c2.Reads m .No) (cT.Reads m .No)) (PPE.Elems cF.Valid c1.Valid c2.Valid cT.Valid) :=
  struct_enc (fun _ => rfl) (fun _ => rfl) (prod_enc (vec_enc h1.enc) (prod_enc (vec_enc h2.enc) (prod_enc (vec_enc (vec_enc hF.enc)) hT.enc)))
    (fun m x bs => by
      constructor
      · rintro ⟨b0, b1, b2, b3, rfl, h0, h1, h2, h3⟩; exact ⟨b0, _, rfl, h0, b1, _, rfl, h1, b2, b3, rfl, h2, h3⟩
      · rintro ⟨b0, _, rfl, h0, b1, _, rfl, h1, b2, b3, rfl, h2, h3⟩; exact ⟨b0, b1, b2, b3, rfl, h0, h1, h2, h3⟩) (fun x => by simp [PPE.Elems])

theorem msmeg1_enc {cF : Codec F} {c1 : Codec G1} (hF : cF.Orderly) (h1 : c1.Orderly) :
    (MSMEG1.codec cF c1).Enc (fun m => MSMEG1.In (cF.Reads m .No) (c1.Reads m .No)) (MSMEG1.Elems cF.Valid c1.Valid) :=
  struct_enc (fun _ => rfl) (fun _ => rfl) (prod_enc (vec_enc h1.enc) (prod_enc (vec_enc hF.enc) (prod_enc (vec_enc (vec_enc hF.enc)) h1.enc)))
    (fun m x bs => by
      constructor
      · rintro ⟨b0, b1, b2, b3, rfl, h0, h1, h2, h3⟩; exact ⟨b0, _, rfl, h0, b1, _, rfl, h1, b2, b3, rfl, h2, h3⟩
      · rintro ⟨b0, _, rfl, h0, b1, _, rfl, h1, b2, b3, rfl, h2, h3⟩; exact ⟨b0, b1, b2, b3, rfl, h0, h1, h2, h3⟩) (fun x => by simp [MSMEG1.Elems])

theorem msmeg2_enc {cF : Codec F} {c2 : Codec G2} (hF : cF.Orderly) (h2 : c2.Orderly) :
    (MSMEG2.codec cF c2).Enc (fun m => MSMEG2.In (cF.Reads m .No) (c2.Reads m .No)) (MSMEG2.Elems cF.Valid c2.Valid) :=
  struct_enc (fun _ => rfl) (fun _ => rfl) (prod_enc (vec_enc hF.enc) (prod_enc (vec_enc h2.enc) (prod_enc (vec_enc (vec_enc hF.enc)) h2.enc)))
    (fun m x bs => by
      constructor
      · rintro ⟨b0, b1, b2, b3, rfl, h0, h1, h2, h3⟩; exact ⟨b0, _, rfl, h0, b1, _, rfl, h1, b2, b3, rfl, h2, h3⟩
      · rintro ⟨b0, _, rfl, h0, b1, _, rfl, h1, b2, b3, rfl, h2, h3⟩; exact ⟨b0, b1, b2, b3, rfl, h0, h1, h2, h3⟩) (fun x => by simp [MSMEG2.Elems])

theorem quad_enc {cF : Codec F} (hF : cF.Orderly) :
    (QuadEqu.codec cF).Enc (fun m => QuadEqu.In (cF.Reads m .No)) (QuadEqu.Elems cF.Valid) :=
  struct_enc (fun _ => rfl) (fun _ => rfl) (prod_enc (vec_enc hF.enc) (prod_enc (vec_enc hF.enc) (prod_enc (vec_enc (vec_enc hF.enc)) hF.enc)))
    (fun m x bs => by
      constructor
      · rintro ⟨b0, b1, b2, b3, rfl, h0, h1, h2, h3⟩; exact ⟨b0, _, rfl, h0, b1, _, rfl, h1, b2, b3, rfl, h2, h3⟩
      · rintro ⟨b0, _, rfl, h0, b1, _, rfl, h1, b2, b3, rfl, h2, h3⟩; exact ⟨b0, b1, b2, b3, rfl, h0, h1, h2, h3⟩) (fun x => by simp [QuadEqu.Elems])

/-- C109: reading returns `x` exactly when the input begins with an encoding of `x`, which is made of encodings of its elements. -/
theorem C109_com {c : Codec G} (h : c.Orderly)
    (m : Compress) (v : Validate) (bs : Bytes) (x : Com G) (rest : Bytes) :
    (Com.codec c).de m v bs = .ok (x, rest) ↔
      ∃ used, bs = used ++ rest ∧ x.In (c.Reads m .No) used ∧ (v = .Yes → x.Elems c.Valid) :=
  (com_enc h).de m v bs x rest

/-- C109: reading returns `x` exactly when the input begins with an encoding of `x`, which is made of encodings of its elements. -/
theorem C109_commit {cF : Codec F} {c : Codec G} (hF : cF.Orderly) (h : c.Orderly)
    (m : Compress) (v : Validate) (bs : Bytes) (x : Commit F G) (rest : Bytes) :
    (Commit.codec cF c).de m v bs = .ok (x, rest) ↔
      ∃ used, bs = used ++ rest ∧ x.In (cF.Reads m .No) (c.Reads m .No) used ∧ (v = .Yes → x.Elems cF.Valid c.Valid) :=
  (commit_enc hF h).de m v bs x rest

/-- C109: reading returns `x` exactly when the input begins with an encoding of `x`, which is made of encodings of its elements. -/
theorem C109_crs {c1 : Codec G1} {c2 : Codec G2} {cT : Codec GT} (h1 : c1.Orderly) (h2 : c2.Orderly) (hT : cT.Orderly)
    (m : Compress) (v : Validate) (bs : Bytes) (x : CRS G1 G2 GT) (rest : Bytes) :
    (CRS.codec c1 c2 cT).de m v bs = .ok (x, rest) ↔
      ∃ used, bs = used ++ rest ∧ x.In (c1.Reads m .No) (c2.Reads m .No) (cT.Reads m .No) used ∧ (v = .Yes → x.Elems c1.Valid c2.Valid cT.Valid) :=
  (crs_enc h1 h2 hT).de m v bs x rest

/-- C109: reading returns `x` exactly when the input begins with an encoding of `x`, which is made of encodings of its elements. -/
theorem C109_proof {cF : Codec F} {c1 : Codec G1} {c2 : Codec G2} (hF : cF.Orderly) (h1 : c1.Orderly) (h2 : c2.Orderly)
    (m : Compress) (v : Validate) (bs : Bytes) (x : EquProof F G1 G2) (rest : Bytes) :
    (EquProof.codec cF c1 c2).de m v bs = .ok (x, rest) ↔
      ∃ used, bs = used ++ rest ∧ x.In (cF.Reads m .No) (c1.Reads m .No) (c2.Reads m .No) used ∧ (v = .Yes → x.Elems cF.Valid c1.Valid c2.Valid) :=
  (proof_enc hF h1 h2).de m v bs x rest

/-- C109: reading returns `x` exactly when the input begins with an encoding of `x`, which is made of encodings of its elements. -/
theorem C109_ppe {cF : Codec F} {c1 : Codec G1} {c2 : Codec G2} {cT : Codec GT} (hF : cF.Orderly) (h1 : c1.Orderly) (h2 : c2.Orderly) (hT : cT.Orderly)
    (m : Compress) (v : Validate) (bs : Bytes) (x : PPE F G1 G2 GT) (rest : Bytes) :
    (PPE.codec cF c1 c2 cT).de m v bs = .ok (x, rest) ↔
      ∃ used, bs = used ++ rest ∧ x.In (cF.Reads m .No) (c1.Reads m .No) (c2.Reads m .No) (cT.Reads m .No) used ∧ (v = .Yes → x.Elems cF.Valid c1.Valid c2.Valid cT.Valid) :=
  (ppe_enc hF h1 h2 hT).de m v bs x rest

/-- C109: reading returns `x` exactly when the input begins with an encoding of `x`, which is made of encodings of its elements. -/
theorem C109_msmeg1 {cF : Codec F} {c1 : Codec G1} (hF : cF.Orderly) (h1 : c1.Orderly)
    (m : Compress) (v : Validate) (bs : Bytes) (x : MSMEG1 F G1) (rest : Bytes) :
    (MSMEG1.codec cF c1).de m v bs = .ok (x, rest) ↔
      ∃ used, bs = used ++ rest ∧ x.In (cF.Reads m .No) (c1.Reads m .No) used ∧ (v = .Yes → x.Elems cF.Valid c1.Valid) :=
  (msmeg1_enc hF h1).de m v bs x rest

/-- C109: reading returns `x` exactly when the input begins with an encoding of `x`, which is made of encodings of its elements. -/
theorem C109_msmeg2 {cF : Codec F} {c2 : Codec G2} (hF : cF.Orderly) (h2 : c2.Orderly)
    (m : Compress) (v : Validate) (bs : Bytes) (x : MSMEG2 F G2) (rest : Bytes) :
    (MSMEG2.codec cF c2).de m v bs = .ok (x, rest) ↔
      ∃ used, bs = used ++ rest ∧ x.In (cF.Reads m .No) (c2.Reads m .No) used ∧ (v = .Yes → x.Elems cF.Valid c2.Valid) :=
  (msmeg2_enc hF h2).de m v bs x rest

/-- C109: reading returns `x` exactly when the input begins with an encoding of `x`, which is made of encodings of its elements. -/
theorem C109_quad {cF : Codec F} (hF : cF.Orderly)
    (m : Compress) (v : Validate) (bs : Bytes) (x : QuadEqu F) (rest : Bytes) :
    (QuadEqu.codec cF).de m v bs = .ok (x, rest) ↔
      ∃ used, bs = used ++ rest ∧ x.In (cF.Reads m .No) used ∧ (v = .Yes → x.Elems cF.Valid) :=
  (quad_enc hF).de m v bs x rest

/-- C109: a value is read back if its elements are. -/
theorem C109_round_com {c : Codec G} (h : c.Orderly)
    (m : Compress) (v : Validate) (x : Com G) (hr : x.Elems (c.Returns m)) (hv : v = .Yes → x.Elems c.Valid) (rest : Bytes) :
    (Com.codec c).de m v ((Com.codec c).ser m x ++ rest) = .ok (x, rest) := by
  refine (C109_com h m v _ x rest).mpr ⟨_, rfl, ?_, hv⟩
  exact ⟨_, _, rfl, hr.1, hr.2⟩

/-- C109: a value is read back if its elements are. -/
theorem C109_round_commit {cF : Codec F} {c : Codec G} (hF : cF.Orderly) (h : c.Orderly)
    (m : Compress) (v : Validate) (x : Commit F G) (hx : x.Fits) (hr : x.Elems (cF.Returns m) (c.Returns m)) (hv : v = .Yes → x.Elems cF.Valid c.Valid) (rest : Bytes) :
    (Commit.codec cF c).de m v ((Commit.codec cF c).ser m x ++ rest) = .ok (x, rest) := by
  refine (C109_commit hF h m v _ x rest).mpr ⟨_, rfl, ?_, hv⟩
  exact ⟨_, _, rfl, vecIn_ser hx.1 fun a ha => ⟨_, _, rfl, (hr.1 a ha).1, (hr.1 a ha).2⟩,
    vecIn_ser hx.2.1 fun r hr' => vecIn_ser (hx.2.2 r hr') (hr.2 r hr')⟩

/-- C109: a value is read back if its elements are. -/
theorem C109_round_crs {c1 : Codec G1} {c2 : Codec G2} {cT : Codec GT} (h1 : c1.Orderly) (h2 : c2.Orderly) (hT : cT.Orderly)
    (m : Compress) (v : Validate) (x : CRS G1 G2 GT) (hx : x.Fits) (hr : x.Elems (c1.Returns m) (c2.Returns m) (cT.Returns m)) (hv : v = .Yes → x.Elems c1.Valid c2.Valid cT.Valid) (rest : Bytes) :
    (CRS.codec c1 c2 cT).de m v ((CRS.codec c1 c2 cT).ser m x ++ rest) = .ok (x, rest) := by
  refine (C109_crs h1 h2 hT m v _ x rest).mpr ⟨_, rfl, ?_, hv⟩
  exact ⟨_, _, _, _, _, rfl, vecIn_ser hx.1 fun a ha => ⟨_, _, rfl, (hr.1 a ha).1, (hr.1 a ha).2⟩,
    vecIn_ser hx.2 fun a ha => ⟨_, _, rfl, (hr.2.1 a ha).1, (hr.2.1 a ha).2⟩, hr.2.2.1, hr.2.2.2.1, hr.2.2.2.2⟩

/-- C109: a value is read back if its elements are. -/
theorem C109_round_proof {cF : Codec F} {c1 : Codec G1} {c2 : Codec G2} (hF : cF.Orderly) (h1 : c1.Orderly) (h2 : c2.Orderly)
    (m : Compress) (v : Validate) (x : EquProof F G1 G2) (hx : x.Fits) (hr : x.Elems (cF.Returns m) (c1.Returns m) (c2.Returns m)) (hv : v = .Yes → x.Elems cF.Valid c1.Valid c2.Valid) (rest : Bytes) :
    (EquProof.codec cF c1 c2).de m v ((EquProof.codec cF c1 c2).ser m x ++ rest) = .ok (x, rest) := by
  refine (C109_proof hF h1 h2 m v _ x rest).mpr ⟨_, rfl, ?_, hv⟩
  exact ⟨_, _, _, rfl, vecIn_ser hx.1 fun a ha => ⟨_, _, rfl, (hr.1 a ha).1, (hr.1 a ha).2⟩,
    vecIn_ser hx.2.1 fun a ha => ⟨_, _, rfl, (hr.2.1 a ha).1, (hr.2.1 a ha).2⟩,
    vecIn_ser hx.2.2.1 fun r hr' => vecIn_ser (hx.2.2.2 r hr') (hr.2.2 r hr')⟩

/-- C109: a value is read back if its elements are. -/
theorem C109_round_ppe {cF : Codec F} {c1 : Codec G1} {c2 : Codec G2} {cT : Codec GT} (hF : cF.Orderly) (h1 : c1.Orderly) (h2 : c2.Orderly) (hT : cT.Orderly)
    (m : Compress) (v : Validate) (x : PPE F G1 G2 GT) (hx : x.Fits) (hr : x.Elems (cF.Returns m) (c1.Returns m) (c2.Returns m) (cT.Returns m)) (hv : v = .Yes → x.Elems cF.Valid c1.Valid c2.Valid cT.Valid) (rest : Bytes) :
    (PPE.codec cF c1 c2 cT).de m v ((PPE.codec cF c1 c2 cT).ser m x ++ rest) = .ok (x, rest) := by
  refine (C109_ppe hF h1 h2 hT m v _ x rest).mpr ⟨_, rfl, ?_, hv⟩
  exact ⟨_, _, _, _, rfl, vecIn_ser hx.1 hr.1, vecIn_ser hx.2.1 hr.2.1,
    vecIn_ser hx.2.2.1 fun r hr' => vecIn_ser (hx.2.2.2 r hr') (hr.2.2.1 r hr'), hr.2.2.2⟩

/-- C109: a value is read back if its elements are. -/
theorem C109_round_msmeg1 {cF : Codec F} {c1 : Codec G1} (hF : cF.Orderly) (h1 : c1.Orderly)
    (m : Compress) (v : Validate) (x : MSMEG1 F G1) (hx : x.Fits) (hr : x.Elems (cF.Returns m) (c1.Returns m)) (hv : v = .Yes → x.Elems cF.Valid c1.Valid) (rest : Bytes) :
    (MSMEG1.codec cF c1).de m v ((MSMEG1.codec cF c1).ser m x ++ rest) = .ok (x, rest) := by
  refine (C109_msmeg1 hF h1 m v _ x rest).mpr ⟨_, rfl, ?_, hv⟩
  exact ⟨_, _, _, _, rfl, vecIn_ser hx.1 hr.1, vecIn_ser hx.2.1 hr.2.1,
    vecIn_ser hx.2.2.1 fun r hr' => vecIn_ser (hx.2.2.2 r hr') (hr.2.2.1 r hr'), hr.2.2.2⟩

/-- C109: a value is read back if its elements are. -/
theorem C109_round_msmeg2 {cF : Codec F} {c2 : Codec G2} (hF : cF.Orderly) (h2 : c2.Orderly)
    (m : Compress) (v : Validate) (x : MSMEG2 F G2) (hx : x.Fits) (hr : x.Elems (cF.Returns m) (c2.Returns m)) (hv : v = .Yes → x.Elems cF.Valid c2.Valid) (rest : Bytes) :
    (MSMEG2.codec cF c2).de m v ((MSMEG2.codec cF c2).ser m x ++ rest) = .ok (x, rest) := by
  refine (C109_msmeg2 hF h2 m v _ x rest).mpr ⟨_, rfl, ?_, hv⟩
  exact ⟨_, _, _, _, rfl, vecIn_ser hx.1 hr.1, vecIn_ser hx.2.1 hr.2.1,
    vecIn_ser hx.2.2.1 fun r hr' => vecIn_ser (hx.2.2.2 r hr') (hr.2.2.1 r hr'), hr.2.2.2⟩

/-- C109: a value is read back if its elements are. -/
theorem C109_round_quad {cF : Codec F} (hF : cF.Orderly)
    (m : Compress) (v : Validate) (x : QuadEqu F) (hx : x.Fits) (hr : x.Elems (cF.Returns m)) (hv : v = .Yes → x.Elems cF.Valid) (rest : Bytes) :
    (QuadEqu.codec cF).de m v ((QuadEqu.codec cF).ser m x ++ rest) = .ok (x, rest) := by
  refine (C109_quad hF m v _ x rest).mpr ⟨_, rfl, ?_, hv⟩
  exact ⟨_, _, _, _, rfl, vecIn_ser hx.1 hr.1, vecIn_ser hx.2.1 hr.2.1,
    vecIn_ser hx.2.2.1 fun r hr' => vecIn_ser (hx.2.2.2 r hr') (hr.2.2.1 r hr'), hr.2.2.2⟩

/-- C109: encodings are unique exactly if those of elements are. -/
theorem C109_canonical_com {c : Codec G} (h : c.Orderly) (s : c.ReturnsSome) : (Com.codec c).Canonical ↔ c.Canonical :=
  com_canonical_iff h s

/-- C109: encodings are unique exactly if those of elements are. -/
theorem C109_canonical_commit {cF : Codec F} {c : Codec G} (hF : cF.Orderly) (h : c.Orderly) (s : c.ReturnsSome) :
    (Commit.codec cF c).Canonical ↔ cF.Canonical ∧ c.Canonical := by
  rw [Commit.codec, struct_canonical_iff (fun _ => rfl) (fun _ => rfl),
    prod_canonical_iff (vec_enc (com_enc h)) (vec_enc (vec_enc hF.enc)) (vec_returnsSome (com_enc h)) (vec_returnsSome (vec_enc hF.enc)),
    vec_canonical_iff (vec_enc hF.enc),
    vec_canonical_iff hF.enc,
    vec_canonical_iff (com_enc h),
    com_canonical_iff h s]
  tauto

/-- C109: encodings are unique exactly if those of elements are. -/
theorem C109_canonical_crs {c1 : Codec G1} {c2 : Codec G2} {cT : Codec GT} (h1 : c1.Orderly) (h2 : c2.Orderly) (hT : cT.Orderly) (s1 : c1.ReturnsSome) (s2 : c2.ReturnsSome) (sT : cT.ReturnsSome) :
    (CRS.codec c1 c2 cT).Canonical ↔ c1.Canonical ∧ c2.Canonical ∧ cT.Canonical := by
  rw [CRS.codec, struct_canonical_iff (fun _ => rfl) (fun _ => rfl),
    prod_canonical_iff (vec_enc (com_enc h1)) (prod_enc (vec_enc (com_enc h2)) (prod_enc h1.enc (prod_enc h2.enc hT.enc))) (vec_returnsSome (com_enc h1)) (prod_returnsSome (vec_enc (com_enc h2)) (prod_enc h1.enc (prod_enc h2.enc hT.enc)) (vec_returnsSome (com_enc h2)) (prod_returnsSome h1.enc (prod_enc h2.enc hT.enc) s1 (prod_returnsSome h2.enc hT.enc s2 sT))),
    prod_canonical_iff (vec_enc (com_enc h2)) (prod_enc h1.enc (prod_enc h2.enc hT.enc)) (vec_returnsSome (com_enc h2)) (prod_returnsSome h1.enc (prod_enc h2.enc hT.enc) s1 (prod_returnsSome h2.enc hT.enc s2 sT)),
    prod_canonical_iff h1.enc (prod_enc h2.enc hT.enc) s1 (prod_returnsSome h2.enc hT.enc s2 sT),
    prod_canonical_iff h2.enc hT.enc s2 sT,
    vec_canonical_iff (com_enc h1),
    com_canonical_iff h1 s1,
    vec_canonical_iff (com_enc h2),
    com_canonical_iff h2 s2]
  tauto

/-- C109: encodings are unique exactly if those of elements are. -/
theorem C109_canonical_proof {cF : Codec F} {c1 : Codec G1} {c2 : Codec G2} (hF : cF.Orderly) (h1 : c1.Orderly) (h2 : c2.Orderly) (s1 : c1.ReturnsSome) (s2 : c2.ReturnsSome) :
    (EquProof.codec cF c1 c2).Canonical ↔ cF.Canonical ∧ c1.Canonical ∧ c2.Canonical := by
  rw [EquProof.codec, struct_canonical_iff (fun _ => rfl) (fun _ => rfl),
    prod_canonical_iff (vec_enc (com_enc h2)) (prod_enc (vec_enc (com_enc h1)) (prod_enc equType_enc (vec_enc (vec_enc hF.enc)))) (vec_returnsSome (com_enc h2)) (prod_returnsSome (vec_enc (com_enc h1)) (prod_enc equType_enc (vec_enc (vec_enc hF.enc))) (vec_returnsSome (com_enc h1)) (prod_returnsSome equType_enc (vec_enc (vec_enc hF.enc)) equType_returnsSome (vec_returnsSome (vec_enc hF.enc)))),
    prod_canonical_iff (vec_enc (com_enc h1)) (prod_enc equType_enc (vec_enc (vec_enc hF.enc))) (vec_returnsSome (com_enc h1)) (prod_returnsSome equType_enc (vec_enc (vec_enc hF.enc)) equType_returnsSome (vec_returnsSome (vec_enc hF.enc))),
    prod_canonical_iff equType_enc (vec_enc (vec_enc hF.enc)) equType_returnsSome (vec_returnsSome (vec_enc hF.enc)),
    vec_canonical_iff (vec_enc hF.enc),
    vec_canonical_iff hF.enc,
    vec_canonical_iff (com_enc h2),
    com_canonical_iff h2 s2,
    vec_canonical_iff (com_enc h1),
    com_canonical_iff h1 s1]
  have := equType_canonical; tauto

/-- C109: encodings are unique exactly if those of elements are. -/
theorem C109_canonical_ppe {cF : Codec F} {c1 : Codec G1} {c2 : Codec G2} {cT : Codec GT} (hF : cF.Orderly) (h1 : c1.Orderly) (h2 : c2.Orderly) (hT : cT.Orderly) (sT : cT.ReturnsSome) :
    (PPE.codec cF c1 c2 cT).Canonical ↔ cF.Canonical ∧ c1.Canonical ∧ c2.Canonical ∧ cT.Canonical := by
  rw [PPE.codec, struct_canonical_iff (fun _ => rfl) (fun _ => rfl),
    prod_canonical_iff (vec_enc h1.enc) (prod_enc (vec_enc h2.enc) (prod_enc (vec_enc (vec_enc hF.enc)) hT.enc)) (vec_returnsSome h1.enc) (prod_returnsSome (vec_enc h2.enc) (prod_enc (vec_enc (vec_enc hF.enc)) hT.enc) (vec_returnsSome h2.enc) (prod_returnsSome (vec_enc (vec_enc hF.enc)) hT.enc (vec_returnsSome (vec_enc hF.enc)) sT)),
    prod_canonical_iff (vec_enc h2.enc) (prod_enc (vec_enc (vec_enc hF.enc)) hT.enc) (vec_returnsSome h2.enc) (prod_returnsSome (vec_enc (vec_enc hF.enc)) hT.enc (vec_returnsSome (vec_enc hF.enc)) sT),
    prod_canonical_iff (vec_enc (vec_enc hF.enc)) hT.enc (vec_returnsSome (vec_enc hF.enc)) sT,
    vec_canonical_iff (vec_enc hF.enc),
    vec_canonical_iff hF.enc,
    vec_canonical_iff h1.enc,
    vec_canonical_iff h2.enc]
  tauto

/-- C109: encodings are unique exactly if those of elements are. -/
theorem C109_canonical_msmeg1 {cF : Codec F} {c1 : Codec G1} (hF : cF.Orderly) (h1 : c1.Orderly) (s1 : c1.ReturnsSome) :
    (MSMEG1.codec cF c1).Canonical ↔ cF.Canonical ∧ c1.Canonical := by
  rw [MSMEG1.codec, struct_canonical_iff (fun _ => rfl) (fun _ => rfl),
    prod_canonical_iff (vec_enc h1.enc) (prod_enc (vec_enc hF.enc) (prod_enc (vec_enc (vec_enc hF.enc)) h1.enc)) (vec_returnsSome h1.enc) (prod_returnsSome (vec_enc hF.enc) (prod_enc (vec_enc (vec_enc hF.enc)) h1.enc) (vec_returnsSome hF.enc) (prod_returnsSome (vec_enc (vec_enc hF.enc)) h1.enc (vec_returnsSome (vec_enc hF.enc)) s1)),
    prod_canonical_iff (vec_enc hF.enc) (prod_enc (vec_enc (vec_enc hF.enc)) h1.enc) (vec_returnsSome hF.enc) (prod_returnsSome (vec_enc (vec_enc hF.enc)) h1.enc (vec_returnsSome (vec_enc hF.enc)) s1),
    prod_canonical_iff (vec_enc (vec_enc hF.enc)) h1.enc (vec_returnsSome (vec_enc hF.enc)) s1,
    vec_canonical_iff (vec_enc hF.enc),
    vec_canonical_iff hF.enc,
    vec_canonical_iff h1.enc]
  tauto

/-- C109: encodings are unique exactly if those of elements are. -/
theorem C109_canonical_msmeg2 {cF : Codec F} {c2 : Codec G2} (hF : cF.Orderly) (h2 : c2.Orderly) (s2 : c2.ReturnsSome) :
    (MSMEG2.codec cF c2).Canonical ↔ cF.Canonical ∧ c2.Canonical := by
  rw [MSMEG2.codec, struct_canonical_iff (fun _ => rfl) (fun _ => rfl),
    prod_canonical_iff (vec_enc hF.enc) (prod_enc (vec_enc h2.enc) (prod_enc (vec_enc (vec_enc hF.enc)) h2.enc)) (vec_returnsSome hF.enc) (prod_returnsSome (vec_enc h2.enc) (prod_enc (vec_enc (vec_enc hF.enc)) h2.enc) (vec_returnsSome h2.enc) (prod_returnsSome (vec_enc (vec_enc hF.enc)) h2.enc (vec_returnsSome (vec_enc hF.enc)) s2)),
    prod_canonical_iff (vec_enc h2.enc) (prod_enc (vec_enc (vec_enc hF.enc)) h2.enc) (vec_returnsSome h2.enc) (prod_returnsSome (vec_enc (vec_enc hF.enc)) h2.enc (vec_returnsSome (vec_enc hF.enc)) s2),
    prod_canonical_iff (vec_enc (vec_enc hF.enc)) h2.enc (vec_returnsSome (vec_enc hF.enc)) s2,
    vec_canonical_iff (vec_enc hF.enc),
    vec_canonical_iff hF.enc,
    vec_canonical_iff h2.enc]
  tauto

/-- C109: encodings are unique exactly if those of elements are. -/
theorem C109_canonical_quad {cF : Codec F} (hF : cF.Orderly) (sF : cF.ReturnsSome) :
    (QuadEqu.codec cF).Canonical ↔ cF.Canonical := by
  rw [QuadEqu.codec, struct_canonical_iff (fun _ => rfl) (fun _ => rfl),
    prod_canonical_iff (vec_enc hF.enc) (prod_enc (vec_enc hF.enc) (prod_enc (vec_enc (vec_enc hF.enc)) hF.enc)) (vec_returnsSome hF.enc) (prod_returnsSome (vec_enc hF.enc) (prod_enc (vec_enc (vec_enc hF.enc)) hF.enc) (vec_returnsSome hF.enc) (prod_returnsSome (vec_enc (vec_enc hF.enc)) hF.enc (vec_returnsSome (vec_enc hF.enc)) sF)),
    prod_canonical_iff (vec_enc hF.enc) (prod_enc (vec_enc (vec_enc hF.enc)) hF.enc) (vec_returnsSome hF.enc) (prod_returnsSome (vec_enc (vec_enc hF.enc)) hF.enc (vec_returnsSome (vec_enc hF.enc)) sF),
    prod_canonical_iff (vec_enc (vec_enc hF.enc)) hF.enc (vec_returnsSome (vec_enc hF.enc)) sF,
    vec_canonical_iff (vec_enc hF.enc),
    vec_canonical_iff hF.enc]
  tauto

/-! ### Values with one encoding -/

theorem com_returns {c : Codec G} (h : c.Orderly) {m : Compress} {x : Com G} (hr : x.Elems (c.Returns m)) : (Com.codec c).Returns m x :=
  (struct_returns (fun _ => rfl) (fun _ => rfl)).mpr (prod_returns h.enc h.enc hr.1 hr.2)

theorem com_unique {c : Codec G} (h : c.Orderly) {m : Compress} {x : Com G} (hr : x.Elems (c.Returns m)) :
    (Com.codec c).Unique m x ↔ x.Elems (c.Unique m) :=
  (struct_unique (fun _ => rfl) (fun _ => rfl)).trans (prod_unique h.enc h.enc hr.1 hr.2)

theorem coms_returns {c : Codec G} (h : c.Orderly) {m : Compress} {l : List (Com G)} (hf : Fits64 l) (hr : ∀ a ∈ l, a.Elems (c.Returns m)) :
    (vecCodec (Com.codec c)).Returns m l := vec_returns (com_enc h) hf fun a ha => com_returns h (hr a ha)

theorem coms_unique {c : Codec G} (h : c.Orderly) {m : Compress} {l : List (Com G)} (hf : Fits64 l) (hr : ∀ a ∈ l, a.Elems (c.Returns m)) :
    (vecCodec (Com.codec c)).Unique m l ↔ ∀ a ∈ l, a.Elems (c.Unique m) :=
  (vec_unique (com_enc h) hf fun a ha => com_returns h (hr a ha)).trans (forall₂_congr fun a ha => com_unique h (hr a ha))

theorem mat_returns {c : Codec F} (h : c.Orderly) {m : Compress} {l : Matrix F} (hf : FitsMat l) (hr : ∀ r ∈ l, ∀ a ∈ r, c.Returns m a) :
    (vecCodec (vecCodec c)).Returns m l := vec_returns (vec_enc h.enc) hf.1 fun r hr' => vec_returns h.enc (hf.2 r hr') (hr r hr')

theorem mat_unique {c : Codec F} (h : c.Orderly) {m : Compress} {l : Matrix F} (hf : FitsMat l) (hr : ∀ r ∈ l, ∀ a ∈ r, c.Returns m a) :
    (vecCodec (vecCodec c)).Unique m l ↔ ∀ r ∈ l, ∀ a ∈ r, c.Unique m a :=
  (vec_unique (vec_enc h.enc) hf.1 fun r hr' => vec_returns h.enc (hf.2 r hr') (hr r hr')).trans
    (forall₂_congr fun r hr' => vec_unique h.enc (hf.2 r hr') (hr r hr'))

theorem equType_returns (m : Compress) (t : EquType) : EquType.codec.Returns m t :=
  equType_enc.reads.mpr (by cases m <;> rfl)

theorem equType_unique (m : Compress) (t : EquType) : EquType.codec.Unique m t := by
  intro bs h
  rw [equType_enc.reads.mp h]
  cases m <;> rfl

/-- C109: a value is read from its serialization only, exactly if this is so for each of its elements. -/
theorem C109_unique_com {c : Codec G} (h : c.Orderly)
    (m : Compress) (x : Com G) (hr : x.Elems (c.Returns m)) :
    (Com.codec c).Unique m x ↔ x.Elems (c.Unique m) :=
  com_unique h hr

/-- C109: a value is read from its serialization only, exactly if this is so for each of its elements. -/
theorem C109_unique_commit {cF : Codec F} {c : Codec G} (hF : cF.Orderly) (h : c.Orderly)
    (m : Compress) (x : Commit F G) (hx : x.Fits) (hr : x.Elems (cF.Returns m) (c.Returns m)) :
    (Commit.codec cF c).Unique m x ↔ x.Elems (cF.Unique m) (c.Unique m) :=
  (struct_unique (fun _ => rfl) (fun _ => rfl)).trans ((prod_unique (vec_enc (com_enc h)) (vec_enc (vec_enc hF.enc)) (coms_returns h hx.1 hr.1) (mat_returns hF hx.2 hr.2)).trans
    (and_congr (coms_unique h hx.1 hr.1) (mat_unique hF hx.2 hr.2)))

/-- C109: a value is read from its serialization only, exactly if this is so for each of its elements. -/
theorem C109_unique_crs {c1 : Codec G1} {c2 : Codec G2} {cT : Codec GT} (h1 : c1.Orderly) (h2 : c2.Orderly) (hT : cT.Orderly)
    (m : Compress) (x : CRS G1 G2 GT) (hx : x.Fits) (hr : x.Elems (c1.Returns m) (c2.Returns m) (cT.Returns m)) :
    (CRS.codec c1 c2 cT).Unique m x ↔ x.Elems (c1.Unique m) (c2.Unique m) (cT.Unique m) :=
  (struct_unique (fun _ => rfl) (fun _ => rfl)).trans ((prod_unique (vec_enc (com_enc h1)) (prod_enc (vec_enc (com_enc h2)) (prod_enc h1.enc (prod_enc h2.enc hT.enc))) (coms_returns h1 hx.1 hr.1) (prod_returns (vec_enc (com_enc h2)) (prod_enc h1.enc (prod_enc h2.enc hT.enc)) (coms_returns h2 hx.2 hr.2.1) (prod_returns h1.enc (prod_enc h2.enc hT.enc) hr.2.2.1 (prod_returns h2.enc hT.enc hr.2.2.2.1 hr.2.2.2.2)))).trans
    (and_congr (coms_unique h1 hx.1 hr.1) ((prod_unique (vec_enc (com_enc h2)) (prod_enc h1.enc (prod_enc h2.enc hT.enc)) (coms_returns h2 hx.2 hr.2.1) (prod_returns h1.enc (prod_enc h2.enc hT.enc) hr.2.2.1 (prod_returns h2.enc hT.enc hr.2.2.2.1 hr.2.2.2.2))).trans
    (and_congr (coms_unique h2 hx.2 hr.2.1) ((prod_unique h1.enc (prod_enc h2.enc hT.enc) hr.2.2.1 (prod_returns h2.enc hT.enc hr.2.2.2.1 hr.2.2.2.2)).trans
    (and_congr Iff.rfl ((prod_unique h2.enc hT.enc hr.2.2.2.1 hr.2.2.2.2).trans
    (and_congr Iff.rfl Iff.rfl))))))))

/-- C109: a value is read from its serialization only, exactly if this is so for each of its elements. -/
theorem C109_unique_proof {cF : Codec F} {c1 : Codec G1} {c2 : Codec G2} (hF : cF.Orderly) (h1 : c1.Orderly) (h2 : c2.Orderly)
    (m : Compress) (x : EquProof F G1 G2) (hx : x.Fits) (hr : x.Elems (cF.Returns m) (c1.Returns m) (c2.Returns m)) :
    (EquProof.codec cF c1 c2).Unique m x ↔ x.Elems (cF.Unique m) (c1.Unique m) (c2.Unique m) := by
  have := (struct_unique (mk := fun (pi, theta, ty, rand) => (⟨pi, theta, ty, rand⟩ : EquProof F G1 G2)) (fields := fun x => (x.pi, x.theta, x.equ_type, x.rand))
    (fun _ => rfl) (fun _ => rfl)).trans ((prod_unique (vec_enc (com_enc h2)) (prod_enc (vec_enc (com_enc h1)) (prod_enc equType_enc (vec_enc (vec_enc hF.enc)))) (coms_returns h2 hx.1 hr.1) (prod_returns (vec_enc (com_enc h1)) (prod_enc equType_enc (vec_enc (vec_enc hF.enc))) (coms_returns h1 hx.2.1 hr.2.1) (prod_returns equType_enc (vec_enc (vec_enc hF.enc)) (equType_returns _ _) (mat_returns hF hx.2.2 hr.2.2)))).trans
    (and_congr (coms_unique h2 hx.1 hr.1) ((prod_unique (vec_enc (com_enc h1)) (prod_enc equType_enc (vec_enc (vec_enc hF.enc))) (coms_returns h1 hx.2.1 hr.2.1) (prod_returns equType_enc (vec_enc (vec_enc hF.enc)) (equType_returns _ _) (mat_returns hF hx.2.2 hr.2.2))).trans
    (and_congr (coms_unique h1 hx.2.1 hr.2.1) ((prod_unique equType_enc (vec_enc (vec_enc hF.enc)) (equType_returns _ _) (mat_returns hF hx.2.2 hr.2.2)).trans
    (and_congr (iff_true_intro (equType_unique _ _)) (mat_unique hF hx.2.2 hr.2.2)))))))
  rw [true_and] at this
  exact this

/-- C109: a value is read from its serialization only, exactly if this is so for each of its elements. -/
theorem C109_unique_ppe {cF : Codec F} {c1 : Codec G1} {c2 : Codec G2} {cT : Codec GT} (hF : cF.Orderly) (h1 : c1.Orderly) (h2 : c2.Orderly) (hT : cT.Orderly)
    (m : Compress) (x : PPE F G1 G2 GT) (hx : x.Fits) (hr : x.Elems (cF.Returns m) (c1.Returns m) (c2.Returns m) (cT.Returns m)) :
    (PPE.codec cF c1 c2 cT).Unique m x ↔ x.Elems (cF.Unique m) (c1.Unique m) (c2.Unique m) (cT.Unique m) :=
  (struct_unique (fun _ => rfl) (fun _ => rfl)).trans ((prod_unique (vec_enc h1.enc) (prod_enc (vec_enc h2.enc) (prod_enc (vec_enc (vec_enc hF.enc)) hT.enc)) (vec_returns h1.enc hx.1 hr.1) (prod_returns (vec_enc h2.enc) (prod_enc (vec_enc (vec_enc hF.enc)) hT.enc) (vec_returns h2.enc hx.2.1 hr.2.1) (prod_returns (vec_enc (vec_enc hF.enc)) hT.enc (mat_returns hF hx.2.2 hr.2.2.1) hr.2.2.2))).trans
    (and_congr (vec_unique h1.enc hx.1 hr.1) ((prod_unique (vec_enc h2.enc) (prod_enc (vec_enc (vec_enc hF.enc)) hT.enc) (vec_returns h2.enc hx.2.1 hr.2.1) (prod_returns (vec_enc (vec_enc hF.enc)) hT.enc (mat_returns hF hx.2.2 hr.2.2.1) hr.2.2.2)).trans
    (and_congr (vec_unique h2.enc hx.2.1 hr.2.1) ((prod_unique (vec_enc (vec_enc hF.enc)) hT.enc (mat_returns hF hx.2.2 hr.2.2.1) hr.2.2.2).trans
    (and_congr (mat_unique hF hx.2.2 hr.2.2.1) Iff.rfl))))))

/-- C109: a value is read from its serialization only, exactly if this is so for each of its elements. -/
theorem C109_unique_msmeg1 {cF : Codec F} {c1 : Codec G1} (hF : cF.Orderly) (h1 : c1.Orderly)
    (m : Compress) (x : MSMEG1 F G1) (hx : x.Fits) (hr : x.Elems (cF.Returns m) (c1.Returns m)) :
    (MSMEG1.codec cF c1).Unique m x ↔ x.Elems (cF.Unique m) (c1.Unique m) :=
  (struct_unique (fun _ => rfl) (fun _ => rfl)).trans ((prod_unique (vec_enc h1.enc) (prod_enc (vec_enc hF.enc) (prod_enc (vec_enc (vec_enc hF.enc)) h1.enc)) (vec_returns h1.enc hx.1 hr.1) (prod_returns (vec_enc hF.enc) (prod_enc (vec_enc (vec_enc hF.enc)) h1.enc) (vec_returns hF.enc hx.2.1 hr.2.1) (prod_returns (vec_enc (vec_enc hF.enc)) h1.enc (mat_returns hF hx.2.2 hr.2.2.1) hr.2.2.2))).trans
    (and_congr (vec_unique h1.enc hx.1 hr.1) ((prod_unique (vec_enc hF.enc) (prod_enc (vec_enc (vec_enc hF.enc)) h1.enc) (vec_returns hF.enc hx.2.1 hr.2.1) (prod_returns (vec_enc (vec_enc hF.enc)) h1.enc (mat_returns hF hx.2.2 hr.2.2.1) hr.2.2.2)).trans
    (and_congr (vec_unique hF.enc hx.2.1 hr.2.1) ((prod_unique (vec_enc (vec_enc hF.enc)) h1.enc (mat_returns hF hx.2.2 hr.2.2.1) hr.2.2.2).trans
    (and_congr (mat_unique hF hx.2.2 hr.2.2.1) Iff.rfl))))))

/-- C109: a value is read from its serialization only, exactly if this is so for each of its elements. -/
theorem C109_unique_msmeg2 {cF : Codec F} {c2 : Codec G2} (hF : cF.Orderly) (h2 : c2.Orderly)
    (m : Compress) (x : MSMEG2 F G2) (hx : x.Fits) (hr : x.Elems (cF.Returns m) (c2.Returns m)) :
    (MSMEG2.codec cF c2).Unique m x ↔ x.Elems (cF.Unique m) (c2.Unique m) :=
  (struct_unique (fun _ => rfl) (fun _ => rfl)).trans ((prod_unique (vec_enc hF.enc) (prod_enc (vec_enc h2.enc) (prod_enc (vec_enc (vec_enc hF.enc)) h2.enc)) (vec_returns hF.enc hx.1 hr.1) (prod_returns (vec_enc h2.enc) (prod_enc (vec_enc (vec_enc hF.enc)) h2.enc) (vec_returns h2.enc hx.2.1 hr.2.1) (prod_returns (vec_enc (vec_enc hF.enc)) h2.enc (mat_returns hF hx.2.2 hr.2.2.1) hr.2.2.2))).trans
    (and_congr (vec_unique hF.enc hx.1 hr.1) ((prod_unique (vec_enc h2.enc) (prod_enc (vec_enc (vec_enc hF.enc)) h2.enc) (vec_returns h2.enc hx.2.1 hr.2.1) (prod_returns (vec_enc (vec_enc hF.enc)) h2.enc (mat_returns hF hx.2.2 hr.2.2.1) hr.2.2.2)).trans
    (and_congr (vec_unique h2.enc hx.2.1 hr.2.1) ((prod_unique (vec_enc (vec_enc hF.enc)) h2.enc (mat_returns hF hx.2.2 hr.2.2.1) hr.2.2.2).trans
    (and_congr (mat_unique hF hx.2.2 hr.2.2.1) Iff.rfl))))))

/-- C109: a value is read from its serialization only, exactly if this is so for each of its elements. -/
theorem C109_unique_quad {cF : Codec F} (hF : cF.Orderly)
    (m : Compress) (x : QuadEqu F) (hx : x.Fits) (hr : x.Elems (cF.Returns m)) :
    (QuadEqu.codec cF).Unique m x ↔ x.Elems (cF.Unique m) :=
  (struct_unique (fun _ => rfl) (fun _ => rfl)).trans ((prod_unique (vec_enc hF.enc) (prod_enc (vec_enc hF.enc) (prod_enc (vec_enc (vec_enc hF.enc)) hF.enc)) (vec_returns hF.enc hx.1 hr.1) (prod_returns (vec_enc hF.enc) (prod_enc (vec_enc (vec_enc hF.enc)) hF.enc) (vec_returns hF.enc hx.2.1 hr.2.1) (prod_returns (vec_enc (vec_enc hF.enc)) hF.enc (mat_returns hF hx.2.2 hr.2.2.1) hr.2.2.2))).trans
    (and_congr (vec_unique hF.enc hx.1 hr.1) ((prod_unique (vec_enc hF.enc) (prod_enc (vec_enc (vec_enc hF.enc)) hF.enc) (vec_returns hF.enc hx.2.1 hr.2.1) (prod_returns (vec_enc (vec_enc hF.enc)) hF.enc (mat_returns hF hx.2.2 hr.2.2.1) hr.2.2.2)).trans
    (and_congr (vec_unique hF.enc hx.2.1 hr.2.1) ((prod_unique (vec_enc (vec_enc hF.enc)) hF.enc (mat_returns hF hx.2.2 hr.2.2.1) hr.2.2.2).trans
    (and_congr (mat_unique hF hx.2.2 hr.2.2.1) Iff.rfl))))))


/-! ### Concrete cases -/

namespace Ex

theorem kCodec_returns (m : Compress) (a : K) : kCodec.Returns m a := kCodec_lawful.returns m a

theorem kCodec_unique (m : Compress) (a : K) : kCodec.Unique m a := fun bs hb => by simpa using kCodec_canonical _ _ _ _ _ (hb [])

theorem kCodec_some : kCodec.ReturnsSome := ⟨0, fun m => kCodec_returns m 0⟩

theorem ko : kCodec.Orderly := kCodec_lawful.orderly

variable (m : Compress) (v : Validate) (bs rest : Bytes)

example := C109_com ko m v bs ⟨1, 2⟩ rest
example := C109_commit ko ko m v bs commit7 rest
example := C109_crs ko ko ko m v bs crs7 rest
example := C109_proof ko ko ko m v bs proof7 rest
example := C109_ppe ko ko ko ko m v bs ppe7 rest
example := C109_msmeg1 ko ko m v bs msm1_7 rest
example := C109_msmeg2 ko ko m v bs msm2_7 rest
example := C109_quad ko m v bs quad7 rest
example := C109_round_com ko m v ⟨1, 2⟩ ⟨kCodec_returns m 1, kCodec_returns m 2⟩
  (fun _ => by simp only [Com.Elems, kCodec_valid]; decide) rest
example := C109_round_commit ko ko m .No commit7 commit7_fits
  ⟨fun _ _ => ⟨kCodec_returns m _, kCodec_returns m _⟩, fun _ _ _ _ => kCodec_returns m _⟩ (by simp) rest
example := C109_round_crs ko ko ko m .No crs7 crs7_fits
  ⟨fun _ _ => ⟨kCodec_returns m _, kCodec_returns m _⟩, fun _ _ => ⟨kCodec_returns m _, kCodec_returns m _⟩, kCodec_returns m _,
    kCodec_returns m _, kCodec_returns m _⟩ (by simp) rest
example := C109_round_proof ko ko ko m .No proof7 proof7_fits
  ⟨fun _ _ => ⟨kCodec_returns m _, kCodec_returns m _⟩, fun _ _ => ⟨kCodec_returns m _, kCodec_returns m _⟩,
    fun _ _ _ _ => kCodec_returns m _⟩ (by simp) rest
example := C109_round_ppe ko ko ko ko m v ppe7 ppe7_fits
  ⟨fun _ _ => kCodec_returns m _, fun _ _ => kCodec_returns m _, fun _ _ _ _ => kCodec_returns m _, kCodec_returns m _⟩
  (fun _ => by simp only [PPE.Elems, kCodec_valid, ppe7]; decide) rest
example := C109_round_msmeg1 ko ko m v msm1_7 msm1_7_fits
  ⟨fun _ _ => kCodec_returns m _, fun _ _ => kCodec_returns m _, fun _ _ _ _ => kCodec_returns m _, kCodec_returns m _⟩
  (fun _ => by simp only [MSMEG1.Elems, kCodec_valid, msm1_7]; decide) rest
example := C109_round_msmeg2 ko ko m v msm2_7 msm2_7_fits
  ⟨fun _ _ => kCodec_returns m _, fun _ _ => kCodec_returns m _, fun _ _ _ _ => kCodec_returns m _, kCodec_returns m _⟩
  (fun _ => by simp only [MSMEG2.Elems, kCodec_valid, msm2_7]; decide) rest
example := C109_round_quad ko m v quad7 quad7_fits
  ⟨fun _ _ => kCodec_returns m _, fun _ _ => kCodec_returns m _, fun _ _ _ _ => kCodec_returns m _, kCodec_returns m _⟩
  (fun _ => by simp only [QuadEqu.Elems, kCodec_valid, quad7]; decide) rest
example : (Com.codec kCodec).Canonical := (C109_canonical_com ko kCodec_some).mpr kCodec_canonical
example : (Commit.codec kCodec kCodec).Canonical := (C109_canonical_commit ko ko kCodec_some).mpr ⟨kCodec_canonical, kCodec_canonical⟩
example : (CRS.codec kCodec kCodec kCodec).Canonical :=
  (C109_canonical_crs ko ko ko kCodec_some kCodec_some kCodec_some).mpr ⟨kCodec_canonical, kCodec_canonical, kCodec_canonical⟩
example : (EquProof.codec kCodec kCodec kCodec).Canonical :=
  (C109_canonical_proof ko ko ko kCodec_some kCodec_some).mpr ⟨kCodec_canonical, kCodec_canonical, kCodec_canonical⟩
example : (PPE.codec kCodec kCodec kCodec kCodec).Canonical :=
  (C109_canonical_ppe ko ko ko ko kCodec_some).mpr
    ⟨kCodec_canonical, kCodec_canonical, kCodec_canonical, kCodec_canonical⟩
example : (MSMEG1.codec kCodec kCodec).Canonical := (C109_canonical_msmeg1 ko ko kCodec_some).mpr ⟨kCodec_canonical, kCodec_canonical⟩
example : (MSMEG2.codec kCodec kCodec).Canonical := (C109_canonical_msmeg2 ko ko kCodec_some).mpr ⟨kCodec_canonical, kCodec_canonical⟩
example : (QuadEqu.codec kCodec).Canonical := (C109_canonical_quad ko kCodec_some).mpr kCodec_canonical
example : (Com.codec kCodec).Unique m ⟨1, 2⟩ :=
  (C109_unique_com ko m ⟨1, 2⟩ ⟨kCodec_returns m _, kCodec_returns m _⟩).mpr ⟨kCodec_unique m _, kCodec_unique m _⟩
example : (Commit.codec kCodec kCodec).Unique m commit7 :=
  (C109_unique_commit ko ko m commit7 commit7_fits
    ⟨fun _ _ => ⟨kCodec_returns m _, kCodec_returns m _⟩, fun _ _ _ _ => kCodec_returns m _⟩).mpr
    ⟨fun _ _ => ⟨kCodec_unique m _, kCodec_unique m _⟩, fun _ _ _ _ => kCodec_unique m _⟩
example : (CRS.codec kCodec kCodec kCodec).Unique m crs7 :=
  (C109_unique_crs ko ko ko m crs7 crs7_fits
    ⟨fun _ _ => ⟨kCodec_returns m _, kCodec_returns m _⟩, fun _ _ => ⟨kCodec_returns m _, kCodec_returns m _⟩, kCodec_returns m _, kCodec_returns m _, kCodec_returns m _⟩).mpr
    ⟨fun _ _ => ⟨kCodec_unique m _, kCodec_unique m _⟩, fun _ _ => ⟨kCodec_unique m _, kCodec_unique m _⟩, kCodec_unique m _, kCodec_unique m _, kCodec_unique m _⟩
example : (EquProof.codec kCodec kCodec kCodec).Unique m proof7 :=
  (C109_unique_proof ko ko ko m proof7 proof7_fits
    ⟨fun _ _ => ⟨kCodec_returns m _, kCodec_returns m _⟩, fun _ _ => ⟨kCodec_returns m _, kCodec_returns m _⟩, fun _ _ _ _ => kCodec_returns m _⟩).mpr
    ⟨fun _ _ => ⟨kCodec_unique m _, kCodec_unique m _⟩, fun _ _ => ⟨kCodec_unique m _, kCodec_unique m _⟩, fun _ _ _ _ => kCodec_unique m _⟩
example : (PPE.codec kCodec kCodec kCodec kCodec).Unique m ppe7 :=
  (C109_unique_ppe ko ko ko ko m ppe7 ppe7_fits
    ⟨fun _ _ => kCodec_returns m _, fun _ _ => kCodec_returns m _, fun _ _ _ _ => kCodec_returns m _, kCodec_returns m _⟩).mpr
    ⟨fun _ _ => kCodec_unique m _, fun _ _ => kCodec_unique m _, fun _ _ _ _ => kCodec_unique m _, kCodec_unique m _⟩
example : (MSMEG1.codec kCodec kCodec).Unique m msm1_7 :=
  (C109_unique_msmeg1 ko ko m msm1_7 msm1_7_fits
    ⟨fun _ _ => kCodec_returns m _, fun _ _ => kCodec_returns m _, fun _ _ _ _ => kCodec_returns m _, kCodec_returns m _⟩).mpr
    ⟨fun _ _ => kCodec_unique m _, fun _ _ => kCodec_unique m _, fun _ _ _ _ => kCodec_unique m _, kCodec_unique m _⟩
example : (MSMEG2.codec kCodec kCodec).Unique m msm2_7 :=
  (C109_unique_msmeg2 ko ko m msm2_7 msm2_7_fits
    ⟨fun _ _ => kCodec_returns m _, fun _ _ => kCodec_returns m _, fun _ _ _ _ => kCodec_returns m _, kCodec_returns m _⟩).mpr
    ⟨fun _ _ => kCodec_unique m _, fun _ _ => kCodec_unique m _, fun _ _ _ _ => kCodec_unique m _, kCodec_unique m _⟩
example : (QuadEqu.codec kCodec).Unique m quad7 :=
  (C109_unique_quad ko m quad7 quad7_fits
    ⟨fun _ _ => kCodec_returns m _, fun _ _ => kCodec_returns m _, fun _ _ _ _ => kCodec_returns m _, kCodec_returns m _⟩).mpr
    ⟨fun _ _ => kCodec_unique m _, fun _ _ => kCodec_unique m _, fun _ _ _ _ => kCodec_unique m _, kCodec_unique m _⟩

end Ex
end GS
