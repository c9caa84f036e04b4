import Verif.Lemmas.Message
import Verif.Props.Raw
import Verif.Props.Domains
import Verif.Lemmas.Adaptive

/-!
# C107: from the bytes of a message to the answer of the verifier

`G1`, `G2` are all points of the curves, `H1`, `H2` the subgroups of prime order (see `Verif/Spec/Raw.lean`). The equation and the CRS are the
verifier's own and lie in the subgroups. The message comes from anywhere.
-/

set_option linter.unusedSectionVars false

namespace GS
variable {F G1 G2 GT H1 H2 : Type} [Field F] [AddCommGroup G1] [SMul F G1] [AddCommGroup G2] [SMul F G2]
  [AddCommGroup GT] [Module F GT] [DecidableEq GT] [AddCommGroup H1] [Module F H1] [AddCommGroup H2] [Module F H2]
  {e' : G1 → G2 → GT} {e : H1 →ₗ[F] H2 →ₗ[F] GT} {f1 : G1 → H1} {f2 : G2 → H2} {j1 : H1 → G1} {j2 : H2 → G2}
  {cF : Codec F} {c1 : Codec G1} {c2 : Codec G2}

/-- C107. What is read with validation lies in the subgroups: it is the image of exactly one message over `H1`, `H2`; and exactly the
images are read. -/
theorem C107_inside (hF : cF.Lawful) (hFv : ∀ a, cF.Valid a) (h1 : ChecksSubgroup F c1 f1 j1) (h2 : ChecksSubgroup F c2 f2 j2)
    (m : Compress) (bs rest : Bytes) (cp : CProof F G1 G2) :
    (CProof.codec cF c1 c2).de m .Yes bs = .ok (cp, rest) ↔
      (CProof.codec cF c1 c2).de m .No bs = .ok (cp, rest) ∧ ∃! cp' : CProof F H1 H2, cp = cp'.on j1 j2 := by
  rw [(msg_good hF h1.lawful h2.lawful).validate]
  refine and_congr_right fun _ => ?_
  have e1 : c1.Valid = fun g => ∃ x, j1 x = g := funext fun g => propext (h1.valid g)
  have e2 : c2.Valid = fun g => ∃ x, j2 x = g := funext fun g => propext (h2.valid g)
  rw [e1, e2]
  constructor
  · intro hc
    refine ⟨cp.on f1 f2, (CProof.on_back h1.inclusion h2.inclusion hc).symm, ?_⟩
    rintro cp' rfl
    exact (CProof.on_on h1.inclusion h2.inclusion cp').symm
  · rintro ⟨cp', rfl, -⟩
    exact CProof.elems_on hFv cp'

theorem OneEqu.verifyRaw_eq (he : Ignores e' e f1 f2) (h1 : Projects F f1) (h2 : Projects F f2) (i1 : ∀ x, f1 (j1 x) = x)
    (i2 : ∀ x, f2 (j2 x) = x) (sch : Scheduler) (crs : CRS H1 H2 GT) (equ : OneEqu F H1 H2 GT) (cp : CProof F G1 G2) :
    equ.verifyRaw e' j1 j2 sch crs cp = equ.verify e sch crs (cp.on f1 f2) := by
  cases equ with
  | ppe equ => simp only [OneEqu.verifyRaw, OneEqu.verify]; rw [C101_ppe he h1 h2, PPE.on_on i1 i2, CRS.on_on i1 i2]
  | msmeg1 equ => simp only [OneEqu.verifyRaw, OneEqu.verify]; rw [C101_msmeg1 he h1 h2, MSMEG1.on_on i1, CRS.on_on i1 i2]
  | msmeg2 equ => simp only [OneEqu.verifyRaw, OneEqu.verify]; rw [C101_msmeg2 he h1 h2, MSMEG2.on_on i2, CRS.on_on i1 i2]
  | quad equ => simp only [OneEqu.verifyRaw, OneEqu.verify]; rw [C101_quad he h1 h2, CRS.on_on i1 i2]

/-- C107, the receiver with validation: whatever the bytes, the receiver's result is an error, or that of the verifier of the other
properties on a message of the subgroups, which is what the bytes contain. -/
theorem C107_receive (he : Ignores e' e f1 f2) (hF : cF.Lawful) (hFv : ∀ a, cF.Valid a) (h1 : ChecksSubgroup F c1 f1 j1)
    (h2 : ChecksSubgroup F c2 f2 j2) (sch : Scheduler) (crs : CRS H1 H2 GT) (equ : OneEqu F H1 H2 GT) (m : Compress) (bs : Bytes) (r : Res Bool) :
    receive cF c1 c2 m .Yes bs (equ.verifyRaw e' j1 j2 sch crs) = .ok r ↔
      ∃ (cp : CProof F H1 H2) (rest : Bytes), (CProof.codec cF c1 c2).de m .No bs = .ok (cp.on j1 j2, rest) ∧
        equ.verify e sch crs cp = r := by
  have hv := OneEqu.verifyRaw_eq he h1.projects h2.projects h1.inclusion h2.inclusion sch crs equ
  rw [receive_ok]
  constructor
  · rintro ⟨cp, rest, hd, rfl⟩
    obtain ⟨hd, cp', rfl, -⟩ := (C107_inside hF hFv h1 h2 m bs rest cp).mp hd
    exact ⟨cp', rest, hd, by rw [hv, CProof.on_on h1.inclusion h2.inclusion]⟩
  · rintro ⟨cp, rest, hd, rfl⟩
    refine ⟨cp.on j1 j2, rest, (C107_inside hF hFv h1 h2 m bs rest _).mpr ⟨hd, cp, rfl, ?_⟩, ?_⟩
    · intro cp' h
      have := congrArg (CProof.on f1 f2) h
      rwa [CProof.on_on h1.inclusion h2.inclusion, CProof.on_on h1.inclusion h2.inclusion, eq_comm] at this
    · rw [hv, CProof.on_on h1.inclusion h2.inclusion]

theorem OneEqu.proved_of_verify (hp : PrimeGroups e) {sch : Scheduler} {crs : CRS H1 H2 GT} (hc : GeneratedCrs e crs) (h0 : crs.NonzeroGens)
    {equ : OneEqu F H1 H2 GT} {cp : CProof F H1 H2} (hr : equ.verify e sch crs cp = .ok true) : equ.Proved e crs cp := by
  cases equ with
  | ppe equ =>
    obtain ⟨x, y, hx, hy, hh⟩ := C05_ppe_sound e hp _ hc h0 _ _ sch hr
    exact ⟨x, y, (hx x).mpr rfl, (hy y).mpr rfl, hh⟩
  | msmeg1 equ =>
    obtain ⟨x, y, hx, hy, hh⟩ := C06_msmeg1_sound e hp _ hc h0 _ _ sch hr
    exact ⟨x, y, (hx x).mpr rfl, (hy y).mpr rfl, hh⟩
  | msmeg2 equ =>
    obtain ⟨x, y, hx, hy, hh⟩ := C07_msmeg2_sound e hp _ hc h0 _ _ sch hr
    exact ⟨x, y, (hx x).mpr rfl, (hy y).mpr rfl, hh⟩
  | quad equ =>
    obtain ⟨x, y, hx, hy, hh⟩ := C08_quad_sound e hp _ hc h0 _ _ sch hr
    exact ⟨x, y, (hx x).mpr rfl, (hy y).mpr rfl, hh⟩

/-- C107, soundness: if the answer to any bytes is `true`, their commitments open to values that satisfy the equation. -/
theorem C107_sound (hp : PrimeGroups e) (he : Ignores e' e f1 f2) (hF : cF.Lawful) (hFv : ∀ a, cF.Valid a) (h1 : ChecksSubgroup F c1 f1 j1)
    (h2 : ChecksSubgroup F c2 f2 j2) (sch : Scheduler) (crs : CRS H1 H2 GT) (hc : GeneratedCrs e crs) (h0 : crs.NonzeroGens)
    (equ : OneEqu F H1 H2 GT) (m : Compress) (bs : Bytes)
    (h : receive cF c1 c2 m .Yes bs (equ.verifyRaw e' j1 j2 sch crs) = .ok (.ok true)) :
    ∃ (cp : CProof F H1 H2) (rest : Bytes), (CProof.codec cF c1 c2).de m .Yes bs = .ok (cp.on j1 j2, rest) ∧ equ.Proved e crs cp := by
  obtain ⟨cp, rest, hd, hr⟩ := (C107_receive he hF hFv h1 h2 sch crs equ m bs _).mp h
  refine ⟨cp, rest, (C107_inside hF hFv h1 h2 m bs rest _).mpr ⟨hd, cp, rfl, ?_⟩, ?_⟩
  · intro cp' h
    have := congrArg (CProof.on f1 f2) h
    rwa [CProof.on_on h1.inclusion h2.inclusion, CProof.on_on h1.inclusion h2.inclusion, eq_comm] at this
  · exact OneEqu.proved_of_verify hp hc h0 hr

/-- C107, transmission: a message that was sent gets the answer it would get without being sent, whatever follows it in the stream, and
every part of it that ends too early is an error. -/
theorem C107_sent (he : Ignores e' e f1 f2) (hF : cF.Lawful) (hFv : ∀ a, cF.Valid a) (h1 : ChecksSubgroup F c1 f1 j1)
    (h2 : ChecksSubgroup F c2 f2 j2) (sch : Scheduler) (crs : CRS H1 H2 GT) (equ : OneEqu F H1 H2 GT) (m : Compress) (v : Validate)
    (cp : CProof F H1 H2) (hf : cp.Fits) :
    (∀ rest, receive cF c1 c2 m v ((CProof.codec cF c1 c2).ser m (cp.on j1 j2) ++ rest) (equ.verifyRaw e' j1 j2 sch crs) =
      .ok (equ.verify e sch crs cp)) ∧
    ∀ b t, t ≠ [] → (CProof.codec cF c1 c2).ser m (cp.on j1 j2) = b ++ t →
      ∃ err, receive cF c1 c2 m v b (equ.verifyRaw e' j1 j2 sch crs) = .error err := by
  have g := msg_good hF h1.lawful h2.lawful
  have hf' : (cp.on j1 j2).Fits := CProof.fits_on.mpr hf
  have e1 : c1.Valid = fun g => ∃ x, j1 x = g := funext fun g => propext (h1.valid g)
  have e2 : c2.Valid = fun g => ∃ x, j2 x = g := funext fun g => propext (h2.valid g)
  refine ⟨fun rest => ?_, fun b t ht hb => ?_⟩
  · rw [receive_ok]
    refine ⟨_, rest, g.round m v _ rest hf' fun _ => ?_, ?_⟩
    · rw [e1, e2]; exact CProof.elems_on hFv cp
    · rw [OneEqu.verifyRaw_eq he h1.projects h2.projects h1.inclusion h2.inclusion, CProof.on_on h1.inclusion h2.inclusion]
  · obtain ⟨err, h⟩ := g.truncated (v := v) hf' ht hb
    exact ⟨err, receive_err h⟩

theorem honest_fits {α β : Type} {x : List α} {y : List β} {cp : CProof F H1 H2} {pf : EquProof F H1 H2} {a b : Nat}
    (fx : Fits64 x) (fy : Fits64 y) (k1 : cp.xcoms.coms.length = x.length ∧ Rect x.length a cp.xcoms.rand)
    (k2 : cp.ycoms.coms.length = y.length ∧ Rect y.length b cp.ycoms.rand) (ha : a < 2 ^ 64) (hb : b < 2 ^ 64)
    (k3 : cp.equ_proofs = [pf]) (k4 : pf.pi.length < 2 ^ 64) (k5 : pf.theta.length < 2 ^ 64) (k6 : FitsMat pf.rand) : cp.Fits := by
  unfold Fits64 at fx fy
  refine ⟨⟨by unfold Fits64; omega, by unfold Fits64; rw [k1.2.1]; omega, fun r hr => ?_⟩,
    ⟨by unfold Fits64; omega, by unfold Fits64; rw [k2.2.1]; omega, fun r hr => ?_⟩, by rw [k3]; simp [Fits64], ?_⟩
  · unfold Fits64; rw [k1.2.2 r hr]; exact ha
  · unfold Fits64; rw [k2.2.2 r hr]; exact hb
  · rw [k3]
    simp only [List.mem_singleton, forall_eq]
    exact ⟨k4, k5, k6⟩

/-- What `commit_and_prove` returns has lengths that fit into eight bytes. -/
theorem commit_and_prove_fits {ρ : Type} [Rng ρ F H1 H2] (sch : Nat → Scheduler) (crs : CRS H1 H2 GT) (rng rng' : ρ) (cp : CProof F H1 H2) :
    (∀ (equ : PPE F H1 H2 GT) x y, Fits64 x → Fits64 y → equ.commitAndProve sch x y crs rng = .ok (cp, rng') → cp.Fits) ∧
    (∀ (equ : MSMEG1 F H1) x y, Fits64 x → Fits64 y → equ.commitAndProve sch x y crs rng = .ok (cp, rng') → cp.Fits) ∧
    (∀ (equ : MSMEG2 F H2) x y, Fits64 x → Fits64 y → equ.commitAndProve sch x y crs rng = .ok (cp, rng') → cp.Fits) ∧
    (∀ (equ : QuadEqu F) x y, Fits64 x → Fits64 y → equ.commitAndProve sch x y crs rng = .ok (cp, rng') → cp.Fits) := by
  refine ⟨fun equ x y fx fy h => ?_, fun equ x y fx fy h => ?_, fun equ x y fx fy h => ?_, fun equ x y fx fy h => ?_⟩
  · obtain ⟨k1, k2, pf, k3, -, k4, k5⟩ := (C38_commit_and_prove sch crs rng rng' cp).1 equ x y h
    refine honest_fits fx fy k1 k2 (by decide) (by decide) k3 (by omega) (by omega) ?_
    simp only [PPE.commitAndProve, bind_ok_iff] at h
    obtain ⟨⟨xc, r1⟩, -, ⟨yc, r2⟩, -, ⟨pf', r3⟩, hp, h⟩ := h
    cases h
    cases k3
    rw [PPE.prove_eq] at hp
    exact (proveCore_rand hp).2.1 ▸ fitsMat_small _ (by simp) (by simp)
  · obtain ⟨k1, k2, pf, k3, -, k4, k5⟩ := (C38_commit_and_prove sch crs rng rng' cp).2.1 equ x y h
    refine honest_fits fx fy k1 k2 (by decide) (by decide) k3 (by omega) (by omega) ?_
    simp only [MSMEG1.commitAndProve, bind_ok_iff] at h
    obtain ⟨⟨xc, r1⟩, -, ⟨yc, r2⟩, -, ⟨pf', r3⟩, hp, h⟩ := h
    cases h
    cases k3
    rw [MSMEG1.prove_eq] at hp
    exact (proveCore_rand hp).2.1 ▸ fitsMat_small _ (by simp) (by simp)
  · obtain ⟨k1, k2, pf, k3, -, k4, k5⟩ := (C38_commit_and_prove sch crs rng rng' cp).2.2.1 equ x y h
    refine honest_fits fx fy k1 k2 (by decide) (by decide) k3 (by omega) (by omega) ?_
    simp only [MSMEG2.commitAndProve, bind_ok_iff] at h
    obtain ⟨⟨xc, r1⟩, -, ⟨yc, r2⟩, -, ⟨pf', r3⟩, hp, h⟩ := h
    cases h
    cases k3
    rw [MSMEG2.prove_eq] at hp
    exact (proveCore_rand hp).2.1 ▸ fitsMat_small _ (by simp) (by simp)
  · obtain ⟨k1, k2, pf, k3, -, k4, k5⟩ := (C38_commit_and_prove sch crs rng rng' cp).2.2.2 equ x y h
    refine honest_fits fx fy k1 k2 (by decide) (by decide) k3 (by omega) (by omega) ?_
    simp only [QuadEqu.commitAndProve, bind_ok_iff] at h
    obtain ⟨⟨xc, r1⟩, -, ⟨yc, r2⟩, -, ⟨pf', r3⟩, hp, h⟩ := h
    cases h
    cases k3
    rw [QuadEqu.prove_eq] at hp
    exact (proveCore_rand hp).2.1 ▸ fitsMat_small _ (by simp) (by simp)

/-- C107, honest senders: what `commit_and_prove` returns for values that satisfy the equation is accepted by the receiver, whichever mode is used
for sending and whether or not the receiver validates. -/
theorem C107_honest {ρ : Type} [Rng ρ F H1 H2] (he : Ignores e' e f1 f2) (hF : cF.Lawful) (hFv : ∀ a, cF.Valid a)
    (h1 : ChecksSubgroup F c1 f1 j1) (h2 : ChecksSubgroup F c2 f2 j2) (sch : Nat → Scheduler) (sch' : Scheduler) (crs : CRS H1 H2 GT)
    (hu : crs.u.length = 2) (hv : crs.v.length = 2) (rng : ρ) (m : Compress) (v : Validate) (rest : Bytes) :
    (∀ (equ : PPE F H1 H2 GT) x y, x ≠ [] → y ≠ [] → Fits64 x → Fits64 y → equ.Dims x.length y.length → equ.Holds e x y →
      ∃ cp rng', equ.commitAndProve sch x y crs rng = .ok (cp, rng') ∧
        receive cF c1 c2 m v ((CProof.codec cF c1 c2).ser m (cp.on j1 j2) ++ rest) ((OneEqu.ppe equ).verifyRaw e' j1 j2 sch' crs) = .ok (.ok true)) ∧
    (∀ (equ : MSMEG1 F H1) x y, x ≠ [] → y ≠ [] → Fits64 x → Fits64 y → equ.Dims x.length y.length → equ.Holds x y →
      ∃ cp rng', equ.commitAndProve sch x y crs rng = .ok (cp, rng') ∧
        receive cF c1 c2 m v ((CProof.codec cF c1 c2).ser m (cp.on j1 j2) ++ rest) ((OneEqu.msmeg1 equ).verifyRaw e' j1 j2 sch' crs) = .ok (.ok true)) ∧
    (∀ (equ : MSMEG2 F H2) x y, x ≠ [] → y ≠ [] → Fits64 x → Fits64 y → equ.Dims x.length y.length → equ.Holds x y →
      ∃ cp rng', equ.commitAndProve sch x y crs rng = .ok (cp, rng') ∧
        receive cF c1 c2 m v ((CProof.codec cF c1 c2).ser m (cp.on j1 j2) ++ rest) ((OneEqu.msmeg2 equ).verifyRaw e' j1 j2 sch' crs) = .ok (.ok true)) ∧
    (∀ (equ : QuadEqu F) x y, x ≠ [] → y ≠ [] → Fits64 x → Fits64 y → equ.Dims x.length y.length → equ.Holds x y →
      ∃ cp rng', equ.commitAndProve sch x y crs rng = .ok (cp, rng') ∧
        receive cF c1 c2 m v ((CProof.codec cF c1 c2).ser m (cp.on j1 j2) ++ rest) ((OneEqu.quad equ).verifyRaw e' j1 j2 sch' crs) = .ok (.ok true)) := by
  refine ⟨fun equ x y hx hy fx fy hd hs => ?_, fun equ x y hx hy fx fy hd hs => ?_, fun equ x y hx hy fx fy hd hs => ?_,
    fun equ x y hx hy fx fy hd hs => ?_⟩
  · obtain ⟨cp, rng', h, hw⟩ := C01_ppe_complete e equ x y crs rng sch sch' hx hy hd hu hv hs
    refine ⟨cp, rng', h, ?_⟩
    rw [(C107_sent he hF hFv h1 h2 sch' crs (.ppe equ) m v cp ?_).1 rest]
    · exact congrArg Except.ok hw
    · exact (commit_and_prove_fits sch crs rng rng' cp).1 equ x y fx fy h
  · obtain ⟨cp, rng', h, hw⟩ := C02_msmeg1_complete e equ x y crs rng sch sch' hx hy hd hu hv hs
    refine ⟨cp, rng', h, ?_⟩
    rw [(C107_sent he hF hFv h1 h2 sch' crs (.msmeg1 equ) m v cp ?_).1 rest]
    · exact congrArg Except.ok hw
    · exact (commit_and_prove_fits sch crs rng rng' cp).2.1 equ x y fx fy h
  · obtain ⟨cp, rng', h, hw⟩ := C03_msmeg2_complete e equ x y crs rng sch sch' hx hy hd hu hv hs
    refine ⟨cp, rng', h, ?_⟩
    rw [(C107_sent he hF hFv h1 h2 sch' crs (.msmeg2 equ) m v cp ?_).1 rest]
    · exact congrArg Except.ok hw
    · exact (commit_and_prove_fits sch crs rng rng' cp).2.2.1 equ x y fx fy h
  · obtain ⟨cp, rng', h, hw⟩ := C04_quad_complete e equ x y crs rng sch sch' hx hy hd hu hv hs
    refine ⟨cp, rng', h, ?_⟩
    rw [(C107_sent he hF hFv h1 h2 sch' crs (.quad equ) m v cp ?_).1 rest]
    · exact congrArg Except.ok hw
    · exact (commit_and_prove_fits sch crs rng rng' cp).2.2.2 equ x y fx fy h

/-- C107: messages with different contents have different bytes; where element codecs are canonical, other bytes that are read completely are a different
message. -/
theorem C107_bytes (hF : cF.Lawful) (h1 : ChecksSubgroup F c1 f1 j1) (h2 : ChecksSubgroup F c2 f2 j2) (m : Compress) (cp cp' : CProof F H1 H2) (hf : cp.Fits)
    (hf' : cp'.Fits) :
    ((CProof.codec cF c1 c2).ser m (cp.on j1 j2) = (CProof.codec cF c1 c2).ser m (cp'.on j1 j2) → cp = cp') ∧
    (cF.Canonical → c1.Canonical → c2.Canonical → ∀ v bs, (CProof.codec cF c1 c2).de m v bs = .ok (cp.on j1 j2, []) →
      bs = (CProof.codec cF c1 c2).ser m (cp.on j1 j2)) := by
  have g := msg_good hF h1.lawful h2.lawful
  refine ⟨fun h => ?_, fun k k1 k2 v bs hd => ?_⟩
  · have := (g.prefix_free (rest := []) (rest' := []) (CProof.fits_on.mpr hf) (CProof.fits_on.mpr hf') (by rw [h])).1
    have := congrArg (CProof.on f1 f2) this
    rwa [CProof.on_on h1.inclusion h2.inclusion, CProof.on_on h1.inclusion h2.inclusion] at this
  · have := msg_canonical k k1 k2 m v bs _ _ hd
    rwa [List.append_nil] at this

/-- C107, panics: forty zero bytes, read with or without validation, stop every receiver with a panic. -/
theorem C107_panic (hF : cF.Lawful) (h1 : c1.Lawful) (h2 : c2.Lawful) (sch : Scheduler) (crs : CRS H1 H2 GT)
    (equ : OneEqu F H1 H2 GT) (m : Compress) (v : Validate) :
    receive cF c1 c2 m v (List.replicate 40 0) (equ.verifyRaw e' j1 j2 sch crs) = .ok (.error .assertFailed) := by
  have g := msg_good hF h1 h2
  have hr := g.round m v ⟨⟨[], []⟩, ⟨[], []⟩, []⟩ [] (by simp [CProof.Fits, Commit.Fits, FitsMat, Fits64])
    (fun _ => by simp [CProof.Elems, Commit.Elems])
  have hs : (CProof.codec cF c1 c2).ser m ⟨⟨[], []⟩, ⟨[], []⟩, []⟩ = List.replicate 40 0 := by
    simp [CProof.codec, Commit.codec, structCodec, prodCodec, vecCodec, u64Codec, leBytes, List.replicate]
  rw [hs, List.append_nil] at hr
  rw [receive_ok]
  refine ⟨_, [], hr, ?_⟩
  cases equ <;> rfl

/-- C107, why validation is needed: whoever knows a point `k ≠ 0` with projection `0` can turn every accepted message into bytes
that are accepted by a receiver that does not validate, although they do not contain a message of the subgroups. A receiver that
validates rejects them. -/
theorem C107_unvalidated (he : Ignores e' e f1 f2) (hF : cF.Lawful) (hFv : ∀ a, cF.Valid a) (h1 : ChecksSubgroup F c1 f1 j1)
    (h2 : ChecksSubgroup F c2 f2 j2) (sch : Scheduler) (crs : CRS H1 H2 GT) (equ : OneEqu F H1 H2 GT) (m : Compress)
    (k : G1) (hk : k ≠ 0) (hk0 : f1 k = 0) (cp : CProof F H1 H2) (hf : cp.Fits) (hx : cp.xcoms.coms ≠ []) (b : Bool)
    (h : equ.verify e sch crs cp = .ok b) :
    ∃ bs, receive cF c1 c2 m .No bs (equ.verifyRaw e' j1 j2 sch crs) = .ok (.ok b) ∧
      (∃ err, receive cF c1 c2 m .Yes bs (equ.verifyRaw e' j1 j2 sch crs) = .error err) ∧
      ∀ cp' : CProof F H1 H2, ∀ rest, (CProof.codec cF c1 c2).de m .No bs ≠ .ok (cp'.on j1 j2, rest) := by
  have g := msg_good hF h1.lawful h2.lawful
  obtain ⟨⟨xc, xr⟩, yc, pfs⟩ := cp
  obtain ⟨c, cs, rfl⟩ := List.exists_cons_of_ne_nil hx
  set d : CProof F G1 G2 := ⟨⟨⟨j1 c.c0, j1 c.c1 + k⟩ :: cs.map (Com.on j1), xr⟩, yc.on j2, pfs.map (EquProof.on j1 j2)⟩ with hd
  have hdf : d.Fits := by
    have := (CProof.fits_on (j1 := j1) (j2 := j2)).mpr hf
    simpa [CProof.Fits, CProof.on, Commit.Fits, Commit.on, Fits64, hd] using this
  have hon : d.on f1 f2 = ⟨⟨c :: cs, xr⟩, yc, pfs⟩ := by
    rw [← CProof.on_on h1.inclusion h2.inclusion (⟨⟨c :: cs, xr⟩, yc, pfs⟩ : CProof F H1 H2)]
    simp only [hd, CProof.on, Commit.on, List.map_cons, Com.on, h1.projects.add, hk0, add_zero]
  have hne : ∀ cp' : CProof F H1 H2, d ≠ cp'.on j1 j2 := by
    intro cp' hcp
    have h3 : d = (⟨⟨c :: cs, xr⟩, yc, pfs⟩ : CProof F H1 H2).on j1 j2 := by
      rw [← hon, hcp, CProof.on_on h1.inclusion h2.inclusion]
    have h4 := congrArg (fun d => d.xcoms.coms) h3
    simp only [hd, CProof.on, Commit.on, List.map_cons, List.cons.injEq, and_true] at h4
    exact hk (left_eq_add.mp (congrArg Com.c1 h4).symm)
  have hr := g.round m .No d [] hdf (by simp)
  rw [List.append_nil] at hr
  have hno : ∀ cp' : CProof F H1 H2, ∀ rest, (CProof.codec cF c1 c2).de m .No ((CProof.codec cF c1 c2).ser m d) ≠ .ok (cp'.on j1 j2, rest) := by
    intro cp' rest h3
    rw [hr] at h3
    simp only [Except.ok.injEq, Prod.mk.injEq] at h3
    exact hne cp' h3.1
  refine ⟨_, ?_, ?_, hno⟩
  · rw [receive_ok]
    exact ⟨d, [], hr, by rw [OneEqu.verifyRaw_eq he h1.projects h2.projects h1.inclusion h2.inclusion, hon, h]⟩
  · cases hy : receive cF c1 c2 m .Yes ((CProof.codec cF c1 c2).ser m d) (equ.verifyRaw e' j1 j2 sch crs) with
    | error err => exact ⟨err, rfl⟩
    | ok r =>
      obtain ⟨cp', rest, h3, -⟩ := (C107_receive he hF hFv h1 h2 sch crs equ m _ r).mp hy
      exact absurd h3 (hno cp' rest)

/-! ### Instances -/

namespace Ex

/-- A codec for a type with few values: value number `i` is written as the byte `i`. -/
def tableCodec {α : Type} [DecidableEq α] (tab : List α) (valid : α → Bool) : Codec α where
  ser _ x := [UInt8.ofNat (tab.idxOf x)]
  size _ _ := 1
  de _ v bs := do
    let (b, rest) ← u8Codec.de .Yes .Yes bs
    match tab[b.toNat]? with
    | some x => if v = .Yes ∧ valid x = false then .error .invalidData else pure (x, rest)
    | none => .error .invalidData
  check x := if valid x then .ok () else .error .invalidData
  batchCheck := loopCheck fun x => if valid x then .ok () else .error .invalidData

section
variable {α : Type} [DecidableEq α] {tab : List α} {valid : α → Bool}

theorem tableCodec_valid (x : α) : (tableCodec tab valid).Valid x ↔ valid x = true := by
  simp only [Codec.Valid, tableCodec]
  split_ifs with h <;> simp [h]

theorem tableCodec_de (hn : tab.Nodup) (hall : ∀ x, x ∈ tab) (hl : tab.length ≤ 256) (m : Compress) (v : Validate) (bs : Bytes) (x : α)
    (rest : Bytes) : (tableCodec tab valid).de m v bs = .ok (x, rest) ↔
      bs = UInt8.ofNat (tab.idxOf x) :: rest ∧ (v = .Yes → valid x = true) := by
  constructor
  · intro h
    simp only [tableCodec, u8Codec, ser_bind_ok, ser_pure, Prod.exists, Except.ok.injEq, Prod.mk.injEq] at h
    obtain ⟨a, b1, ⟨y, z, h1, h2, h3⟩, h4⟩ := h
    obtain ⟨h5, h6⟩ := readExact_iff.mp h1
    obtain ⟨w, rfl⟩ := List.length_eq_one_iff.mp h6
    simp only [List.headD_cons] at h2
    subst h2 h3
    split at h4
    · rename_i x' hx
      split_ifs at h4 with h8
      simp only [Except.ok.injEq, Prod.mk.injEq] at h4
      obtain ⟨rfl, rfl⟩ := h4
      obtain ⟨hi, hx⟩ := List.getElem?_eq_some_iff.mp hx
      rw [← hx, hn.idxOf_getElem]
      refine ⟨by simpa using h5, fun hv => ?_⟩
      rw [hx]
      simpa using fun h9 => h8 ⟨hv, h9⟩
    · simp at h4
  · rintro ⟨rfl, hv⟩
    have hi : tab.idxOf x < tab.length := List.idxOf_lt_length_iff.mpr (hall x)
    have h1 : u8Codec.de .Yes .Yes (UInt8.ofNat (tab.idxOf x) :: rest) = .ok (UInt8.ofNat (tab.idxOf x), rest) := by
      simp [u8Codec, readExact, ser_ok_bind, ser_pure]
    have h2 : (UInt8.ofNat (tab.idxOf x)).toNat = tab.idxOf x := by
      rw [UInt8.toNat_ofNat', Nat.mod_eq_of_lt (by omega)]
    have h3 : tab[tab.idxOf x]? = some x := by rw [List.getElem?_eq_getElem hi, List.getElem_idxOf]
    simp only [tableCodec, h1, ser_ok_bind, h2, ser_pure, h3]
    rw [if_neg]
    rintro ⟨h4, h5⟩
    rw [hv h4] at h5
    exact Bool.noConfusion h5

theorem tableCodec_lawful (hn : tab.Nodup) (hall : ∀ x, x ∈ tab) (hl : tab.length ≤ 256) : (tableCodec tab valid).Lawful where
  round m v x rest hv := (tableCodec_de hn hall hl m v _ x rest).mpr ⟨rfl, fun h => (tableCodec_valid x).mp (hv h)⟩
  size m x := rfl
  stream m v bs x rest h := by
    obtain ⟨h1, h2⟩ := (tableCodec_de hn hall hl m v bs x rest).mp h
    exact ⟨[_], h1, fun rest' => (tableCodec_de hn hall hl m v _ x rest').mpr ⟨rfl, h2⟩⟩
  validate m bs x rest := by rw [tableCodec_de hn hall hl, tableCodec_de hn hall hl, tableCodec_valid]; simp
  batch l := by
    induction l with
    | nil => simp [tableCodec, loopCheck]
    | cons a l ih =>
      rw [List.forall_mem_cons, ← ih]
      exact unit_bind_ok

theorem tableCodec_canonical (hn : tab.Nodup) (hall : ∀ x, x ∈ tab) (hl : tab.length ≤ 256) : (tableCodec tab valid).Canonical :=
  fun m v bs x rest h => ((tableCodec_de hn hall hl m v bs x rest).mp h).1

end

def tab7 : List K := [0, 1, 2, 3, 4, 5, 6]
def tab21 : List P21 := tab7.flatMap fun a => [⟨a, 0⟩, ⟨a, 1⟩, ⟨a, 2⟩]

/-- All scalars are valid, and the points of the subgroup of order 7. -/
def scalar7 : Codec K := tableCodec tab7 fun _ => true
def point21 : Codec P21 := tableCodec tab21 fun p => p.b = 0

theorem scalar7_lawful : scalar7.Lawful := tableCodec_lawful (by decide) (by decide) (by decide)
theorem scalar7_canonical : scalar7.Canonical := tableCodec_canonical (by decide) (by decide) (by decide)
theorem scalar7_valid (a : K) : scalar7.Valid a := (tableCodec_valid a).mpr rfl
theorem tab21_all : ∀ x, x ∈ tab21 := by
  rintro ⟨a, b⟩
  revert a b
  decide
theorem point21_lawful : point21.Lawful := tableCodec_lawful (by decide) tab21_all (by decide)
theorem point21_canonical : point21.Canonical := tableCodec_canonical (by decide) tab21_all (by decide)

theorem point21_checks : ChecksSubgroup K point21 P21.a j21 where
  lawful := point21_lawful
  projects := p21_projects
  inclusion _ := rfl
  valid g := by
    rw [point21, tableCodec_valid]
    obtain ⟨a, b⟩ := g
    simp [j21, eq_comm]

theorem scalar7_checks : ChecksSubgroup K scalar7 id id where
  lawful := scalar7_lawful
  projects := k_projects
  inclusion _ := rfl
  valid g := ⟨fun _ => ⟨g, rfl⟩, fun _ => scalar7_valid g⟩

section
variable (sch : Scheduler) (m : Compress) (v : Validate) (bs rest : Bytes)

example (cp : CProof K P21 K) := C107_inside scalar7_lawful scalar7_valid point21_checks scalar7_checks m bs rest cp
example (r : Res Bool) := C107_receive e21_ignores scalar7_lawful scalar7_valid point21_checks scalar7_checks sch crs7 (.ppe ppe7) m bs r
example := C107_panic (e' := e21) (j1 := j21) (j2 := id) scalar7_lawful point21_lawful scalar7_lawful sch crs7 (.msmeg2 msm2_7) m v

/-- The receiver accepts the bytes of an honest proof, and what it accepted is proved. -/
example (sch0 : Nat → Scheduler) : ∃ cp rng' bs, msm1_7.commitAndProve sch0 [2] [3, 4] crs7 (5 : Nat) = .ok (cp, rng') ∧
    receive scalar7 point21 scalar7 m .Yes bs ((OneEqu.msmeg1 msm1_7).verifyRaw e21 j21 id sch crs7) = .ok (.ok true) ∧
    ∃ (cp' : CProof K K K) (rest : Bytes), (CProof.codec scalar7 point21 scalar7).de m .Yes bs = .ok (cp'.on j21 id, rest) ∧
      (OneEqu.msmeg1 msm1_7).Proved e7 crs7 cp' := by
  obtain ⟨cp, rng', h, hr⟩ := (C107_honest e21_ignores scalar7_lawful scalar7_valid point21_checks scalar7_checks sch0 sch crs7
    rfl rfl (5 : Nat) m .Yes [7, 7]).2.1 msm1_7 [2] [3, 4] (by simp) (by simp) (by simp [Fits64]) (by simp [Fits64]) msm1_7_dims msm1_7_holds
  exact ⟨cp, rng', _, h, hr, C107_sound prime7 e21_ignores scalar7_lawful scalar7_valid point21_checks scalar7_checks sch crs7 crs7_generated crs7_nonzero
    _ m _ hr⟩

example := C107_sent e21_ignores scalar7_lawful scalar7_valid point21_checks scalar7_checks sch crs7 (.msmeg1 msm1_7) m v msm1_7_msg
  (by unfold CProof.Fits Commit.Fits EquProof.Fits FitsMat Fits64; decide)
example := C107_bytes scalar7_lawful point21_checks scalar7_checks m msm1_7_msg ppe7_msg
  (by unfold CProof.Fits Commit.Fits EquProof.Fits FitsMat Fits64; decide) (by unfold CProof.Fits Commit.Fits EquProof.Fits FitsMat Fits64; decide)
example := C107_unvalidated e21_ignores scalar7_lawful scalar7_valid point21_checks scalar7_checks seqSched crs7 (.msmeg1 msm1_7) m ⟨0, 1⟩ (by decide) rfl
  msm1_7_msg (by unfold CProof.Fits Commit.Fits EquProof.Fits FitsMat Fits64; decide) (by decide) true msm1_7_accepted

end

end Ex

end GS
