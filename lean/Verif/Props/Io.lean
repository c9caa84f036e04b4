import Verif.Lemmas.Io
import Verif.Props.Serialization

/-!
# C82: serialization to any writer and from any reader

`IoCodec.Serves` (`Verif/Spec/Io.lean`) describes all runs in terms of the methods for byte strings, for which see
C40-C42, C58 and C59. The codecs of field and group elements are arbitrary functions that use `write_all` and `read_exact`.
-/

set_option linter.unusedSectionVars false

namespace GS
variable {F G G1 G2 GT : Type}

/-! ### All runs -/

/-- C82, EquType. -/
theorem C82_equType : EquType.io.Serves EquType.codec := equTypeIo_toCodec ▸ EquType.io.serves

theorem comIo_toCodec (c : IoCodec G) : (Com.io c).toCodec = Com.codec c.toCodec := by
  simp only [Com.io, Com.codec, structIo_toCodec, prodIo_toCodec, vecIo_toCodec]

/-- C82, Com. -/
theorem C82_com (c : IoCodec G) : (Com.io c).Serves (Com.codec c.toCodec) :=
  comIo_toCodec c ▸ (Com.io c).serves

theorem commitIo_toCodec (cF : IoCodec F) (c : IoCodec G) : (Commit.io cF c).toCodec = Commit.codec cF.toCodec c.toCodec := by
  simp only [Commit.io, Commit.codec, Com.io, Com.codec, structIo_toCodec, prodIo_toCodec, vecIo_toCodec]

/-- C82, Commit. -/
theorem C82_commit (cF : IoCodec F) (c : IoCodec G) : (Commit.io cF c).Serves (Commit.codec cF.toCodec c.toCodec) :=
  commitIo_toCodec cF c ▸ (Commit.io cF c).serves

theorem crsIo_toCodec (c1 : IoCodec G1) (c2 : IoCodec G2) (cT : IoCodec GT) : (CRS.io c1 c2 cT).toCodec = CRS.codec c1.toCodec c2.toCodec cT.toCodec := by
  simp only [CRS.io, CRS.codec, Com.io, Com.codec, structIo_toCodec, prodIo_toCodec, vecIo_toCodec]

/-- C82, CRS. -/
theorem C82_crs (c1 : IoCodec G1) (c2 : IoCodec G2) (cT : IoCodec GT) : (CRS.io c1 c2 cT).Serves (CRS.codec c1.toCodec c2.toCodec cT.toCodec) :=
  crsIo_toCodec c1 c2 cT ▸ (CRS.io c1 c2 cT).serves

theorem proofIo_toCodec (cF : IoCodec F) (c1 : IoCodec G1) (c2 : IoCodec G2) : (EquProof.io cF c1 c2).toCodec = EquProof.codec cF.toCodec c1.toCodec c2.toCodec := by
  simp only [EquProof.io, EquProof.codec, Com.io, Com.codec, structIo_toCodec, prodIo_toCodec, vecIo_toCodec, equTypeIo_toCodec]

/-- C82, EquProof. -/
theorem C82_proof (cF : IoCodec F) (c1 : IoCodec G1) (c2 : IoCodec G2) : (EquProof.io cF c1 c2).Serves (EquProof.codec cF.toCodec c1.toCodec c2.toCodec) :=
  proofIo_toCodec cF c1 c2 ▸ (EquProof.io cF c1 c2).serves

theorem ppeIo_toCodec (cF : IoCodec F) (c1 : IoCodec G1) (c2 : IoCodec G2) (cT : IoCodec GT) : (PPE.io cF c1 c2 cT).toCodec = PPE.codec cF.toCodec c1.toCodec c2.toCodec cT.toCodec := by
  simp only [PPE.io, PPE.codec, structIo_toCodec, prodIo_toCodec, vecIo_toCodec]

/-- C82, PPE. -/
theorem C82_ppe (cF : IoCodec F) (c1 : IoCodec G1) (c2 : IoCodec G2) (cT : IoCodec GT) : (PPE.io cF c1 c2 cT).Serves (PPE.codec cF.toCodec c1.toCodec c2.toCodec cT.toCodec) :=
  ppeIo_toCodec cF c1 c2 cT ▸ (PPE.io cF c1 c2 cT).serves

theorem msmeg1Io_toCodec (cF : IoCodec F) (c1 : IoCodec G1) : (MSMEG1.io cF c1).toCodec = MSMEG1.codec cF.toCodec c1.toCodec := by
  simp only [MSMEG1.io, MSMEG1.codec, structIo_toCodec, prodIo_toCodec, vecIo_toCodec]

/-- C82, MSMEG1. -/
theorem C82_msmeg1 (cF : IoCodec F) (c1 : IoCodec G1) : (MSMEG1.io cF c1).Serves (MSMEG1.codec cF.toCodec c1.toCodec) :=
  msmeg1Io_toCodec cF c1 ▸ (MSMEG1.io cF c1).serves

theorem msmeg2Io_toCodec (cF : IoCodec F) (c2 : IoCodec G2) : (MSMEG2.io cF c2).toCodec = MSMEG2.codec cF.toCodec c2.toCodec := by
  simp only [MSMEG2.io, MSMEG2.codec, structIo_toCodec, prodIo_toCodec, vecIo_toCodec]

/-- C82, MSMEG2. -/
theorem C82_msmeg2 (cF : IoCodec F) (c2 : IoCodec G2) : (MSMEG2.io cF c2).Serves (MSMEG2.codec cF.toCodec c2.toCodec) :=
  msmeg2Io_toCodec cF c2 ▸ (MSMEG2.io cF c2).serves

theorem quadIo_toCodec (cF : IoCodec F) : (QuadEqu.io cF).toCodec = QuadEqu.codec cF.toCodec := by
  simp only [QuadEqu.io, QuadEqu.codec, structIo_toCodec, prodIo_toCodec, vecIo_toCodec]

/-- C82, QuadEqu. -/
theorem C82_quad (cF : IoCodec F) : (QuadEqu.io cF).Serves (QuadEqu.codec cF.toCodec) :=
  quadIo_toCodec cF ▸ (QuadEqu.io cF).serves

/-! ### Writing and reading back -/

section back
variable {α : Type} {c : IoCodec α} {d : Codec α}

theorem IoCodec.Serves.back (h : c.Serves d) {m : Compress} {x : α} {acc : Bytes} (hw : WriteRun (c.ser m x) acc .ok)
    {v : Validate} {more : Bytes} (hd : d.de m v (d.ser m x ++ more) = .ok (x, more)) {r : Except SerErr α} {rest : Bytes}
    (hr : (c.de m v).Run False (acc ++ more) r rest) : r = .ok x ∧ rest = more := by
  rw [(h.write_ok _ _ _).mp hw] at hr
  cases r with
  | error err => exact absurd (((h.read_err _ _ _ _).mp ⟨_, hr⟩).symm.trans hd) (by simp)
  | ok y =>
    have := ((h.read_ok _ _ _ _ _).mp hr).symm.trans hd
    simp only [Except.ok.injEq, Prod.mk.injEq] at this
    exact ⟨by rw [this.1], this.2⟩

theorem IoCodec.Serves.torn (h : c.Serves d) {m : Compress} {x : α} {acc : Bytes} (hw : WriteRun (c.ser m x) acc .err)
    {v : Validate} (hd : ∀ b t, t ≠ [] → d.ser m x = b ++ t → ∃ err, d.de m v b = .error err) {r : Except SerErr α}
    {rest : Bytes} (hr : (c.de m v).Run True acc r rest) : ∃ err, r = .error err := by
  obtain ⟨t, ht, hs⟩ := (h.write_err _ _ _).mp hw
  obtain ⟨err, hd⟩ := hd acc t ht hs
  rcases h.read_fault _ _ _ _ _ hr with h1 | h1
  · exact ⟨_, h1⟩
  · cases r with
    | error err => exact ⟨_, rfl⟩
    | ok y => exact absurd (((h.read_ok _ _ _ _ _).mp h1).symm.trans hd) (by simp)

theorem IoCodec.Serves.crashed (h : c.Serves d) {m : Compress} {x : α} {acc : Bytes} (hw : WriteRun (c.ser m x) acc .crash)
    {v : Validate} (hd : ∀ b t, t ≠ [] → d.ser m x = b ++ t → ∃ err, d.de m v b = .error err)
    (hf : d.de m .No (d.ser m x ++ []) = .ok (x, []))
    (hv : ∀ y rest, d.de m .Yes (d.ser m x) = .ok (y, rest) → d.de m .No (d.ser m x) = .ok (y, rest)) {r : Except SerErr α}
    {rest : Bytes} (hr : (c.de m v).Run True acc r rest) : (∃ err, r = .error err) ∨ r = .ok x := by
  obtain ⟨t, hs⟩ := (h.write_crash _ _ _).mp hw
  by_cases ht : t = []
  · subst ht
    rw [List.append_nil] at hs hf
    subst hs
    cases r with
    | error err => exact .inl ⟨_, rfl⟩
    | ok y =>
      right
      have h1 := (h.read_ok _ _ _ _ _).mp ((h.read_fault _ _ _ _ _ hr).resolve_left (by simp))
      have h2 : d.de m .No (d.ser m x) = .ok (y, rest) := by
        cases v with
        | No => exact h1
        | Yes => exact hv _ _ h1
      rw [hf] at h2
      simp only [Except.ok.injEq, Prod.mk.injEq] at h2
      rw [h2.1]
  · exact .inl (h.torn ((h.write_err _ _ _).mpr ⟨t, ht, hs⟩) hd hr)

end back

/-- C82, EquType: what was written without error is read back, the bytes after it are left in the reader; what was written until an
error is rejected; what was written until a crash is rejected or, if complete, read back. -/
theorem C82_equType_back (m : Compress) (v : Validate) (x : EquType) (acc : Bytes) :
    (WriteRun (EquType.io.ser m x) acc .ok → ∀ more r rest,
      (EquType.io.de m v).Run False (acc ++ more) r rest → r = .ok x ∧ rest = more) ∧
    (WriteRun (EquType.io.ser m x) acc .err → ∀ r rest,
      (EquType.io.de m v).Run True acc r rest → ∃ err, r = .error err) ∧
    (WriteRun (EquType.io.ser m x) acc .crash → ∀ r rest,
      (EquType.io.de m v).Run True acc r rest → (∃ err, r = .error err) ∨ r = .ok x) := by
  have hs := C82_equType
  refine ⟨fun hw more r rest hr => ?_, fun hw r rest hr => ?_, fun hw r rest hr => ?_⟩
  · exact hs.back hw (equType_good.round m v x more trivial fun _ => trivial) hr
  · exact hs.torn hw (fun _ _ ht he => equType_good.truncated trivial ht he) hr
  · exact hs.crashed hw (fun _ _ ht he => equType_good.truncated trivial ht he) (equType_good.round m .No x [] trivial fun _ => trivial)
      (fun y rest hd => ((equType_good.validate m _ _ _).mp hd).1) hr

/-- C82, Com: what was written without error is read back, the bytes after it are left in the reader; what was written until an
error or a crash is not read as a value, except for the value itself if all of it was written. -/
theorem C82_com_back {c : IoCodec G} (h : c.toCodec.Lawful) (m : Compress) (v : Validate) (x : Com G) (acc : Bytes) :
    (WriteRun ((Com.io c).ser m x) acc .ok → (v = .Yes → x.Elems c.toCodec.Valid) → ∀ more r rest,
      ((Com.io c).de m v).Run False (acc ++ more) r rest → r = .ok x ∧ rest = more) ∧
    (WriteRun ((Com.io c).ser m x) acc .err → ∀ r rest,
      ((Com.io c).de m v).Run True acc r rest → ∃ err, r = .error err) ∧
    (WriteRun ((Com.io c).ser m x) acc .crash → ∀ r rest,
      ((Com.io c).de m v).Run True acc r rest → (∃ err, r = .error err) ∨ r = .ok x) := by
  have hs := C82_com c
  refine ⟨fun hw hv more r rest hr => ?_, fun hw r rest hr => ?_, fun hw r rest hr => ?_⟩
  · exact hs.back hw (C41_com h m v x hv more) hr
  · exact hs.torn hw ((C42_com h m x x).2.2 v) hr
  · exact hs.crashed hw ((C42_com h m x x).2.2 v) (C41_com h m .No x (by simp) [])
      (fun y rest hd => ((C59_com h m _ _ _).1.mp hd).1) hr

/-- C82, Commit: what was written without error is read back, the bytes after it are left in the reader; what was written until an
error or a crash is not read as a value, except for the value itself if all of it was written. -/
theorem C82_commit_back {cF : IoCodec F} {c : IoCodec G} (hF : cF.toCodec.Lawful) (h : c.toCodec.Lawful) (m : Compress) (v : Validate) (x : Commit F G) (hx : x.Fits) (acc : Bytes) :
    (WriteRun ((Commit.io cF c).ser m x) acc .ok → (v = .Yes → x.Elems cF.toCodec.Valid c.toCodec.Valid) → ∀ more r rest,
      ((Commit.io cF c).de m v).Run False (acc ++ more) r rest → r = .ok x ∧ rest = more) ∧
    (WriteRun ((Commit.io cF c).ser m x) acc .err → ∀ r rest,
      ((Commit.io cF c).de m v).Run True acc r rest → ∃ err, r = .error err) ∧
    (WriteRun ((Commit.io cF c).ser m x) acc .crash → ∀ r rest,
      ((Commit.io cF c).de m v).Run True acc r rest → (∃ err, r = .error err) ∨ r = .ok x) := by
  have hs := C82_commit cF c
  refine ⟨fun hw hv more r rest hr => ?_, fun hw r rest hr => ?_, fun hw r rest hr => ?_⟩
  · exact hs.back hw (C41_commit hF h m v x hx hv more) hr
  · exact hs.torn hw ((C42_commit hF h m x x hx hx).2.2 v) hr
  · exact hs.crashed hw ((C42_commit hF h m x x hx hx).2.2 v) (C41_commit hF h m .No x hx (by simp) [])
      (fun y rest hd => ((C59_commit hF h m _ _ _).1.mp hd).1) hr

/-- C82, CRS: what was written without error is read back, the bytes after it are left in the reader; what was written until an
error or a crash is not read as a value, except for the value itself if all of it was written. -/
theorem C82_crs_back {c1 : IoCodec G1} {c2 : IoCodec G2} {cT : IoCodec GT} (h1 : c1.toCodec.Lawful) (h2 : c2.toCodec.Lawful) (hT : cT.toCodec.Lawful) (m : Compress) (v : Validate) (x : CRS G1 G2 GT) (hx : x.Fits) (acc : Bytes) :
    (WriteRun ((CRS.io c1 c2 cT).ser m x) acc .ok → (v = .Yes → x.Elems c1.toCodec.Valid c2.toCodec.Valid cT.toCodec.Valid) → ∀ more r rest,
      ((CRS.io c1 c2 cT).de m v).Run False (acc ++ more) r rest → r = .ok x ∧ rest = more) ∧
    (WriteRun ((CRS.io c1 c2 cT).ser m x) acc .err → ∀ r rest,
      ((CRS.io c1 c2 cT).de m v).Run True acc r rest → ∃ err, r = .error err) ∧
    (WriteRun ((CRS.io c1 c2 cT).ser m x) acc .crash → ∀ r rest,
      ((CRS.io c1 c2 cT).de m v).Run True acc r rest → (∃ err, r = .error err) ∨ r = .ok x) := by
  have hs := C82_crs c1 c2 cT
  refine ⟨fun hw hv more r rest hr => ?_, fun hw r rest hr => ?_, fun hw r rest hr => ?_⟩
  · exact hs.back hw (C41_crs h1 h2 hT m v x hx hv more) hr
  · exact hs.torn hw ((C42_crs h1 h2 hT m x x hx hx).2.2 v) hr
  · exact hs.crashed hw ((C42_crs h1 h2 hT m x x hx hx).2.2 v) (C41_crs h1 h2 hT m .No x hx (by simp) [])
      (fun y rest hd => ((C59_crs h1 h2 hT m _ _ _).1.mp hd).1) hr

/-- C82, EquProof: what was written without error is read back, the bytes after it are left in the reader; what was written until an
error or a crash is not read as a value, except for the value itself if all of it was written. -/
theorem C82_proof_back {cF : IoCodec F} {c1 : IoCodec G1} {c2 : IoCodec G2} (hF : cF.toCodec.Lawful) (h1 : c1.toCodec.Lawful) (h2 : c2.toCodec.Lawful) (m : Compress) (v : Validate) (x : EquProof F G1 G2) (hx : x.Fits) (acc : Bytes) :
    (WriteRun ((EquProof.io cF c1 c2).ser m x) acc .ok → (v = .Yes → x.Elems cF.toCodec.Valid c1.toCodec.Valid c2.toCodec.Valid) → ∀ more r rest,
      ((EquProof.io cF c1 c2).de m v).Run False (acc ++ more) r rest → r = .ok x ∧ rest = more) ∧
    (WriteRun ((EquProof.io cF c1 c2).ser m x) acc .err → ∀ r rest,
      ((EquProof.io cF c1 c2).de m v).Run True acc r rest → ∃ err, r = .error err) ∧
    (WriteRun ((EquProof.io cF c1 c2).ser m x) acc .crash → ∀ r rest,
      ((EquProof.io cF c1 c2).de m v).Run True acc r rest → (∃ err, r = .error err) ∨ r = .ok x) := by
  have hs := C82_proof cF c1 c2
  refine ⟨fun hw hv more r rest hr => ?_, fun hw r rest hr => ?_, fun hw r rest hr => ?_⟩
  · exact hs.back hw (C41_proof hF h1 h2 m v x hx hv more) hr
  · exact hs.torn hw ((C42_proof hF h1 h2 m x x hx hx).2.2 v) hr
  · exact hs.crashed hw ((C42_proof hF h1 h2 m x x hx hx).2.2 v) (C41_proof hF h1 h2 m .No x hx (by simp) [])
      (fun y rest hd => ((C59_proof hF h1 h2 m _ _ _).1.mp hd).1) hr

/-- C82, PPE: what was written without error is read back, the bytes after it are left in the reader; what was written until an
error or a crash is not read as a value, except for the value itself if all of it was written. -/
theorem C82_ppe_back {cF : IoCodec F} {c1 : IoCodec G1} {c2 : IoCodec G2} {cT : IoCodec GT} (hF : cF.toCodec.Lawful) (h1 : c1.toCodec.Lawful) (h2 : c2.toCodec.Lawful) (hT : cT.toCodec.Lawful) (m : Compress) (v : Validate) (x : PPE F G1 G2 GT) (hx : x.Fits) (acc : Bytes) :
    (WriteRun ((PPE.io cF c1 c2 cT).ser m x) acc .ok → (v = .Yes → x.Elems cF.toCodec.Valid c1.toCodec.Valid c2.toCodec.Valid cT.toCodec.Valid) → ∀ more r rest,
      ((PPE.io cF c1 c2 cT).de m v).Run False (acc ++ more) r rest → r = .ok x ∧ rest = more) ∧
    (WriteRun ((PPE.io cF c1 c2 cT).ser m x) acc .err → ∀ r rest,
      ((PPE.io cF c1 c2 cT).de m v).Run True acc r rest → ∃ err, r = .error err) ∧
    (WriteRun ((PPE.io cF c1 c2 cT).ser m x) acc .crash → ∀ r rest,
      ((PPE.io cF c1 c2 cT).de m v).Run True acc r rest → (∃ err, r = .error err) ∨ r = .ok x) := by
  have hs := C82_ppe cF c1 c2 cT
  refine ⟨fun hw hv more r rest hr => ?_, fun hw r rest hr => ?_, fun hw r rest hr => ?_⟩
  · exact hs.back hw (C41_ppe hF h1 h2 hT m v x hx hv more) hr
  · exact hs.torn hw ((C42_ppe hF h1 h2 hT m x x hx hx).2.2 v) hr
  · exact hs.crashed hw ((C42_ppe hF h1 h2 hT m x x hx hx).2.2 v) (C41_ppe hF h1 h2 hT m .No x hx (by simp) [])
      (fun y rest hd => ((C59_ppe hF h1 h2 hT m _ _ _).1.mp hd).1) hr

/-- C82, MSMEG1: what was written without error is read back, the bytes after it are left in the reader; what was written until an
error or a crash is not read as a value, except for the value itself if all of it was written. -/
theorem C82_msmeg1_back {cF : IoCodec F} {c1 : IoCodec G1} (hF : cF.toCodec.Lawful) (h1 : c1.toCodec.Lawful) (m : Compress) (v : Validate) (x : MSMEG1 F G1) (hx : x.Fits) (acc : Bytes) :
    (WriteRun ((MSMEG1.io cF c1).ser m x) acc .ok → (v = .Yes → x.Elems cF.toCodec.Valid c1.toCodec.Valid) → ∀ more r rest,
      ((MSMEG1.io cF c1).de m v).Run False (acc ++ more) r rest → r = .ok x ∧ rest = more) ∧
    (WriteRun ((MSMEG1.io cF c1).ser m x) acc .err → ∀ r rest,
      ((MSMEG1.io cF c1).de m v).Run True acc r rest → ∃ err, r = .error err) ∧
    (WriteRun ((MSMEG1.io cF c1).ser m x) acc .crash → ∀ r rest,
      ((MSMEG1.io cF c1).de m v).Run True acc r rest → (∃ err, r = .error err) ∨ r = .ok x) := by
  have hs := C82_msmeg1 cF c1
  refine ⟨fun hw hv more r rest hr => ?_, fun hw r rest hr => ?_, fun hw r rest hr => ?_⟩
  · exact hs.back hw (C41_msmeg1 hF h1 m v x hx hv more) hr
  · exact hs.torn hw ((C42_msmeg1 hF h1 m x x hx hx).2.2 v) hr
  · exact hs.crashed hw ((C42_msmeg1 hF h1 m x x hx hx).2.2 v) (C41_msmeg1 hF h1 m .No x hx (by simp) [])
      (fun y rest hd => ((C59_msmeg1 hF h1 m _ _ _).1.mp hd).1) hr

/-- C82, MSMEG2: what was written without error is read back, the bytes after it are left in the reader; what was written until an
error or a crash is not read as a value, except for the value itself if all of it was written. -/
theorem C82_msmeg2_back {cF : IoCodec F} {c2 : IoCodec G2} (hF : cF.toCodec.Lawful) (h2 : c2.toCodec.Lawful) (m : Compress) (v : Validate) (x : MSMEG2 F G2) (hx : x.Fits) (acc : Bytes) :
    (WriteRun ((MSMEG2.io cF c2).ser m x) acc .ok → (v = .Yes → x.Elems cF.toCodec.Valid c2.toCodec.Valid) → ∀ more r rest,
      ((MSMEG2.io cF c2).de m v).Run False (acc ++ more) r rest → r = .ok x ∧ rest = more) ∧
    (WriteRun ((MSMEG2.io cF c2).ser m x) acc .err → ∀ r rest,
      ((MSMEG2.io cF c2).de m v).Run True acc r rest → ∃ err, r = .error err) ∧
    (WriteRun ((MSMEG2.io cF c2).ser m x) acc .crash → ∀ r rest,
      ((MSMEG2.io cF c2).de m v).Run True acc r rest → (∃ err, r = .error err) ∨ r = .ok x) := by
  have hs := C82_msmeg2 cF c2
  refine ⟨fun hw hv more r rest hr => ?_, fun hw r rest hr => ?_, fun hw r rest hr => ?_⟩
  · exact hs.back hw (C41_msmeg2 hF h2 m v x hx hv more) hr
  · exact hs.torn hw ((C42_msmeg2 hF h2 m x x hx hx).2.2 v) hr
  · exact hs.crashed hw ((C42_msmeg2 hF h2 m x x hx hx).2.2 v) (C41_msmeg2 hF h2 m .No x hx (by simp) [])
      (fun y rest hd => ((C59_msmeg2 hF h2 m _ _ _).1.mp hd).1) hr

/-- C82, QuadEqu: what was written without error is read back, the bytes after it are left in the reader; what was written until an
error or a crash is not read as a value, except for the value itself if all of it was written. -/
theorem C82_quad_back {cF : IoCodec F} (hF : cF.toCodec.Lawful) (m : Compress) (v : Validate) (x : QuadEqu F) (hx : x.Fits) (acc : Bytes) :
    (WriteRun ((QuadEqu.io cF).ser m x) acc .ok → (v = .Yes → x.Elems cF.toCodec.Valid) → ∀ more r rest,
      ((QuadEqu.io cF).de m v).Run False (acc ++ more) r rest → r = .ok x ∧ rest = more) ∧
    (WriteRun ((QuadEqu.io cF).ser m x) acc .err → ∀ r rest,
      ((QuadEqu.io cF).de m v).Run True acc r rest → ∃ err, r = .error err) ∧
    (WriteRun ((QuadEqu.io cF).ser m x) acc .crash → ∀ r rest,
      ((QuadEqu.io cF).de m v).Run True acc r rest → (∃ err, r = .error err) ∨ r = .ok x) := by
  have hs := C82_quad cF
  refine ⟨fun hw hv more r rest hr => ?_, fun hw r rest hr => ?_, fun hw r rest hr => ?_⟩
  · exact hs.back hw (C41_quad hF m v x hx hv more) hr
  · exact hs.torn hw ((C42_quad hF m x x hx hx).2.2 v) hr
  · exact hs.crashed hw ((C42_quad hF m x x hx hx).2.2 v) (C41_quad hF m .No x hx (by simp) [])
      (fun y rest hd => ((C59_quad hF m _ _ _).1.mp hd).1) hr

/-! ### Example: a codec that writes and reads one byte -/

namespace Ex

/-- `kCodec` for writers and readers. -/
def kIo : IoCodec K where
  ser _ x := [[UInt8.ofNat x.val]]
  size _ _ := 1
  de _ v := do
    let b ← u8Io.de .Yes .Yes
    if b.toNat < 7 then
      if v = .Yes ∧ b.toNat = 6 then .fail .invalidData else pure (b.toNat : K)
    else .fail .invalidData
  check := kCodec.check
  batchCheck := kCodec.batchCheck

theorem kIo_toCodec : kIo.toCodec = kCodec := by
  refine Codec.ext' (by funext m x; rfl) rfl ?_ rfl rfl
  funext m v bs
  simp only [IoCodec.toCodec, kIo, kCodec, ReadProg.slice_bind']
  rw [show (u8Io.de .Yes .Yes).slice bs = u8Codec.de .Yes .Yes bs from rfl]
  cases u8Codec.de .Yes .Yes bs with
  | error err => rfl
  | ok p =>
    simp only [ser_ok_bind]
    split_ifs <;> rfl

/-- A crash after five bytes of a proof. -/
example : WriteRun ((EquProof.io kIo kIo kIo).ser .Yes proof7) [1, 0, 0, 0, 0] .crash := by
  refine ((C82_proof kIo kIo kIo).write_crash _ _ _).mpr ⟨[0, 0, 0, 1, 2] ++ [2, 0, 0, 0, 0, 0, 0, 0, 3, 4, 5, 0] ++ [3] ++
    [1, 0, 0, 0, 0, 0, 0, 0, 1, 0, 0, 0, 0, 0, 0, 0, 6], ?_⟩
  rw [kIo_toCodec]
  decide +kernel

/-- What it left is no proof. -/
example (v : Validate) (r : Except SerErr (EquProof K K K)) (rest : Bytes)
    (h : ((EquProof.io kIo kIo kIo).de .Yes v).Run True [1, 0, 0, 0, 0] r rest) : ∃ err, r = .error err := by
  have l : kIo.toCodec.Lawful := kIo_toCodec ▸ kCodec_lawful
  refine (C82_proof_back l l l .Yes v proof7 (by simp [EquProof.Fits, FitsMat, Fits64, proof7]) _).2.1 ?_ r rest h
  refine ((C82_proof kIo kIo kIo).write_err _ _ _).mpr ⟨[0, 0, 0, 1, 2] ++ [2, 0, 0, 0, 0, 0, 0, 0, 3, 4, 5, 0] ++ [3] ++
    [1, 0, 0, 0, 0, 0, 0, 0, 1, 0, 0, 0, 0, 0, 0, 0, 6], by simp, ?_⟩
  rw [kIo_toCodec]
  decide +kernel

/-! ### Instances -/

theorem kIo_lawful : kIo.toCodec.Lawful := kIo_toCodec ▸ kCodec_lawful

section
variable (m : Compress) (v : Validate) (acc : Bytes)

example := C82_com_back kIo_lawful m v ⟨1, 2⟩ acc
example := C82_commit_back kIo_lawful kIo_lawful m v commit7 commit7_fits acc
example := C82_crs_back kIo_lawful kIo_lawful kIo_lawful m v crs7 crs7_fits acc
example := C82_ppe_back kIo_lawful kIo_lawful kIo_lawful kIo_lawful m v ppe7 ppe7_fits acc
example := C82_msmeg1_back kIo_lawful kIo_lawful m v msm1_7 msm1_7_fits acc
example := C82_msmeg2_back kIo_lawful kIo_lawful m v msm2_7 msm2_7_fits acc
example := C82_quad_back kIo_lawful m v quad7 quad7_fits acc

end

end Ex

end GS
