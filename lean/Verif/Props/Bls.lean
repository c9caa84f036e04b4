import Verif.Lemmas.Bls
import Verif.Props.Element

/-!
# C114: with the points of BLS12-381

In the format of ark-bls12-381 every point has one encoding only, except points of order two, of which its curves have none. So the property of C58
holds for the curve that the tests use, where it fails for the curves of C110. Validation is weaker in one case: what
is read in uncompressed form, and not as an element of a vector, is not checked to be on the curve.
-/

namespace GS
variable {F G1 G2 GT B B' C : Type}

/-! ### Coordinates -/

/-- C114: coordinates in a prime field are big-endian. -/
theorem C114_fp {p k : Nat} [NeZero p] (hk : 8 * p ≤ 256 ^ k) :
    (beFp p k).Lawful ∧ ∀ x : ZMod p, ((beFp p k).enc x).foldl (fun n b => 256 * n + b.toNat) 0 = x.val := by
  refine ⟨beFp_lawful hk, fun x => ?_⟩
  have hv := ZMod.val_lt x
  rw [beFp, List.foldl_reverse]
  have key : ∀ l : Bytes, l.foldr (fun b n => 256 * n + b.toNat) 0 = leNat l := by
    intro l
    induction l with
    | nil => rfl
    | cons a l ih => rw [List.foldr_cons, ih, leNat, add_comm]
  rw [key, leNat_leBytes _ _ (by omega)]

/-- C114: coordinates in a quadratic extension, with the second component first. -/
theorem C114_quad [Zero B] [Zero C] {c : BeField B} (h : c.Lawful) (mk : B × B → C) (fields : C → B × B)
    (h1 : ∀ a, fields (mk a) = a) (h2 : ∀ b, mk (fields b) = b) (h0 : fields 0 = (0, 0)) :
    (beQuad c mk fields).Lawful ∧ ∀ c0 c1, (beQuad c mk fields).enc (mk (c0, c1)) = c.enc c1 ++ c.enc c0 :=
  ⟨beQuad_lawful h h1 h2 h0, fun c0 c1 => by simp [beQuad, h1]⟩

/-! ### Points -/

section points
variable [Field B] [DecidableEq B] {E : SWCurve B} {c : BeField B}

/-- C114: what is read in compressed form. The identity is read from one string; a point on the curve from its first coordinate and the
flag that tells whether its second one is the larger root. -/
theorem C114_compressed (hE : E.Lawful) (hc : c.Lawful) (v : Validate) (bs : Bytes) (P : Affine B) (rest : Bytes) :
    (E.blsCodec c).de .Yes v bs = .ok (P, rest) ↔
      (P = Affine.identity ∧ bs = tagged 0xc0 (c.enc 0) ++ rest) ∨
      (P.infinity = false ∧ E.onCurve P = true ∧ (v = .Yes → E.inSubgroup P = true) ∧
        ∃ g, (g = !E.le P.y (-P.y) ∨ P.y = -P.y) ∧ bs = tagged (if g then 0xa0 else 0x80) (c.enc P.x) ++ rest) := by
  rw [bls_de, SWCurve.blsRead, bls_read_compressed hE hc]
  constructor
  · rintro ⟨⟨h1, h2⟩ | ⟨h1, h2, h3⟩, hv⟩
    · exact .inl ⟨h1, h2⟩
    · exact .inr ⟨h1, h2, hv, h3⟩
  · rintro (⟨rfl, h2⟩ | ⟨h1, h2, hv, h3⟩)
    · exact ⟨.inl ⟨rfl, h2⟩, fun _ => hE.identity⟩
    · exact ⟨.inr ⟨h1, h2, h3⟩, hv⟩

/-- C114: what is read in uncompressed form. Any pair of coordinates is a point, with validation as well if it passes the test for the
subgroup. -/
theorem C114_uncompressed (hE : E.Lawful) (hc : c.Lawful) (v : Validate) (bs : Bytes) (P : Affine B) (rest : Bytes) :
    (E.blsCodec c).de .No v bs = .ok (P, rest) ↔
      (P = Affine.identity ∧ bs = tagged 0x40 (c.enc 0) ++ c.enc 0 ++ rest) ∨
      (P.infinity = false ∧ (v = .Yes → E.inSubgroup P = true) ∧ bs = c.enc P.x ++ c.enc P.y ++ rest) := by
  rw [bls_de, SWCurve.blsRead, bls_read_uncompressed hc]
  constructor
  · rintro ⟨⟨h1, h2⟩ | ⟨h1, h2⟩, hv⟩
    · exact .inl ⟨h1, h2⟩
    · exact .inr ⟨h1, hv, h2⟩
  · rintro (⟨rfl, h2⟩ | ⟨h1, hv, h2⟩)
    · exact ⟨.inl ⟨rfl, h2⟩, fun _ => hE.identity⟩
    · exact ⟨.inr ⟨h1, h2⟩, hv⟩

/-- C114: sizes, and which points are read back. -/
theorem C114_points (hE : E.Lawful) (hc : c.Lawful) :
    (∀ P, ((E.blsCodec c).ser .Yes P).length = c.size ∧ ((E.blsCodec c).ser .No P).length = 2 * c.size) ∧
    (∀ P, (E.blsCodec c).Returns .Yes P ↔ P = Affine.identity ∨ (P.infinity = false ∧ E.onCurve P = true)) ∧
    (∀ P, (E.blsCodec c).Returns .No P ↔ P = Affine.identity ∨ P.infinity = false) := by
  refine ⟨fun P => ⟨bls_size hc _ P, bls_size hc _ P⟩, fun P => ⟨fun h => ?_, ?_⟩, fun P => ⟨fun h => ?_, ?_⟩⟩
  · rcases (C114_compressed hE hc _ _ _ _).mp (h []) with ⟨h1, -⟩ | ⟨h1, h2, -⟩
    · exact .inl h1
    · exact .inr ⟨h1, h2⟩
  · rintro (rfl | ⟨h1, h2⟩) rest
    · exact (C114_compressed hE hc _ _ _ _).mpr (.inl ⟨rfl, by rw [bls_ser_identity hc]⟩)
    · exact (C114_compressed hE hc _ _ _ _).mpr (.inr ⟨h1, h2, by simp, _, .inl rfl, by rw [bls_ser_finite hc h1]⟩)
  · rcases (C114_uncompressed hE hc _ _ _ _).mp (h []) with ⟨h1, -⟩ | ⟨h1, -⟩
    · exact .inl h1
    · exact .inr h1
  · rintro (rfl | h1) rest
    · exact (C114_uncompressed hE hc _ _ _ _).mpr (.inl ⟨rfl, by rw [bls_ser_identity hc]⟩)
    · exact (C114_uncompressed hE hc _ _ _ _).mpr (.inr ⟨h1, by simp, by rw [bls_ser_finite hc h1]⟩)

/-- C114: a point of the curve has one compressed encoding, the identity included, unless it is of order two. -/
theorem C114_unique_compressed (hE : E.Lawful) (hc : c.Lawful) (P : Affine B) (hP : E.proper P = true) :
    (E.blsCodec c).Unique .Yes P ↔ P = Affine.identity ∨ P.y ≠ -P.y := by
  constructor
  · intro hu
    by_contra hcon
    simp only [not_or, not_not] at hcon
    obtain ⟨hn, hy⟩ := hcon
    obtain ⟨h1, h2⟩ := ((SWCurve.proper_iff P).mp hP).resolve_left hn
    have key : ∀ g : Bool, tagged (if g then 0xa0 else 0x80) (c.enc P.x) = (E.blsCodec c).ser .Yes P := fun g =>
      hu _ fun rest => (C114_compressed hE hc _ _ _ _).mpr (.inr ⟨h1, h2, by simp, g, .inr hy, rfl⟩)
    have h := (key true).trans (key false).symm
    obtain ⟨a, l, e, ha⟩ := hc.clear P.x
    rw [e] at h
    simp [tagged] at h
  · intro h bs hb
    rcases (C114_compressed hE hc _ _ _ _).mp (hb []) with ⟨rfl, h3⟩ | ⟨h3, -, -, g, h5 | h5, h6⟩
    · rw [bls_ser_identity hc]; simpa using h3
    · rw [bls_ser_finite hc h3]; simpa [h5] using h6
    · rcases h with rfl | h
      · simp [Affine.identity] at h3
      · exact absurd h5 h

/-- C114: every pair of coordinates has one uncompressed encoding. -/
theorem C114_unique_uncompressed (hE : E.Lawful) (hc : c.Lawful) (P : Affine B) : (E.blsCodec c).Unique .No P := by
  intro bs hb
  rcases (C114_uncompressed hE hc _ _ _ _).mp (hb []) with ⟨rfl, h3⟩ | ⟨h3, -, h6⟩
  · rw [bls_ser_identity hc]; simpa using h3
  · rw [bls_ser_finite hc h3]; simpa using h6

/-- C114: only serializations are read, exactly if the curve has no points of order two. -/
theorem C114_canonical (hE : E.Lawful) (hc : c.Lawful) : (E.blsCodec c).Canonical ↔ E.NoOrderTwo := by
  constructor
  · intro h x y hxy hy
    have hP : E.proper ⟨x, y, false⟩ = true := (SWCurve.proper_iff _).mpr (.inr ⟨rfl, (SWCurve.onCurve_iff _ _).mpr hxy⟩)
    have hu : (E.blsCodec c).Unique .Yes ⟨x, y, false⟩ := fun bs hb => by
      have := h _ _ _ _ _ (hb [])
      simpa using this
    rcases (C114_unique_compressed hE hc _ hP).mp hu with h1 | h1
    · simp [Affine.identity] at h1
    · exact h1 hy
  · intro h m v bs P rest hd
    cases m with
    | Yes =>
      rcases (C114_compressed hE hc _ _ _ _).mp hd with ⟨rfl, h3⟩ | ⟨h3, h4, -, g, h5 | h5, h6⟩
      · rw [bls_ser_identity hc]; exact h3
      · rw [bls_ser_finite hc h3, ← h5]; exact h6
      · obtain ⟨x, y, i⟩ := P
        simp only at h3
        subst h3
        exact absurd h5 (h x y ((SWCurve.onCurve_iff _ _).mp h4))
    | No =>
      rcases (C114_uncompressed hE hc _ _ _ _).mp hd with ⟨rfl, h3⟩ | ⟨h3, -, h6⟩
      · rw [bls_ser_identity hc]; exact h3
      · rw [bls_ser_finite hc h3]; exact h6

/-- C114: what is cut short is invalid data, and a point in one form is refused in the other. No other errors occur. -/
theorem C114_errors (hc : c.Lawful) (v : Validate) :
    (∀ bs, bs.length < c.size → (E.blsCodec c).de .Yes v bs = .error .invalidData) ∧
    (∀ bs, bs.length < 2 * c.size → (E.blsCodec c).de .No v bs = .error .invalidData) ∧
    (∀ P rest, (E.blsCodec c).de .Yes v ((E.blsCodec c).ser .No P ++ rest) = .error .unexpectedFlags) ∧
    (∀ P rest, c.size ≤ rest.length → (E.blsCodec c).de .No v ((E.blsCodec c).ser .Yes P ++ rest) = .error .unexpectedFlags) ∧
    (∀ m bs err, (E.blsCodec c).de m v bs = .error err → err = .invalidData ∨ err = .unexpectedFlags) := by
  refine ⟨fun bs h => ?_, fun bs h => ?_, fun P rest => ?_, fun P rest h => ?_, fun m bs err h => ?_⟩
  · simp only [SWCurve.blsCodec, SWCurve.blsRead, SWCurve.blsCompressed, readData_short h]; rfl
  · simp only [SWCurve.blsCodec, SWCurve.blsRead, SWCurve.blsUncompressed, readData_short h]; rfl
  · obtain ⟨w, l, fl, e, hf, h1⟩ := bls_ser_first (E := E) hc .No P
    have hr : readData c.size (((E.blsCodec c).ser .No P) ++ rest) =
        .ok ((((E.blsCodec c).ser .No P) ++ rest).take c.size, (((E.blsCodec c).ser .No P) ++ rest).drop c.size) := by
      refine readData_long ?_
      rw [List.length_append, bls_size hc]
      simp only [SWCurve.blsCodec]; omega
    have hp := hc.pos
    have hd : ((((E.blsCodec c).ser .No P) ++ rest).take c.size).headD 0 = w := by
      rw [e]
      cases hs : c.size with
      | zero => omega
      | succ n => rfl
    simp only [SWCurve.blsCodec] at hr hd ⊢
    simp only [SWCurve.blsRead, SWCurve.blsCompressed, hr, bind, Except.bind, hd, hf, h1]
    rfl
  · obtain ⟨w, l, fl, e, hf, h1⟩ := bls_ser_first (E := E) hc .Yes P
    have hr : readData (2 * c.size) (((E.blsCodec c).ser .Yes P) ++ rest) =
        .ok ((((E.blsCodec c).ser .Yes P) ++ rest).take (2 * c.size), (((E.blsCodec c).ser .Yes P) ++ rest).drop (2 * c.size)) := by
      refine readData_long ?_
      rw [List.length_append, bls_size hc]
      simp only [SWCurve.blsCodec]; omega
    have hp := hc.pos
    have hd : ((((E.blsCodec c).ser .Yes P) ++ rest).take (2 * c.size)).headD 0 = w := by
      rw [e]
      cases hs : 2 * c.size with
      | zero => omega
      | succ n => rfl
    simp only [SWCurve.blsCodec] at hr hd ⊢
    simp only [SWCurve.blsRead, SWCurve.blsUncompressed, hr, bind, Except.bind, hd, hf, h1]
    rfl
  · simp only [SWCurve.blsCodec] at h
    rcases bind_error h with h | ⟨⟨P, r⟩, -, h⟩
    · cases m with
      | Yes =>
        rcases bind_error h with h | ⟨⟨b, r⟩, -, h⟩
        · exact .inl (readData_error h)
        rcases bind_error h with h | ⟨fl, -, h⟩
        · exact .inl (ofByte_error h)
        repeat' split at h
        all_goals simp_all [ser_pure]
      | No =>
        rcases bind_error h with h | ⟨⟨b, r⟩, -, h⟩
        · exact .inl (readData_error h)
        rcases bind_error h with h | ⟨fl, -, h⟩
        · exact .inl (ofByte_error h)
        repeat' split at h
        all_goals simp_all [ser_pure]
    · dsimp only at h
      split at h
      · simp_all
      · simp [ser_pure] at h

/-! ### Validation -/

theorem bls_strict_orderly (hE : E.Lawful) (hc : c.Lawful) : (E.blsCodec c).strict.Orderly := by
  refine strict_orderly (fun m bs P rest h => ?_) (loopCheck_iff _)
  cases m with
  | Yes =>
    rcases (C114_compressed hE hc _ _ _ _).mp h with ⟨h1, rfl⟩ | ⟨h1, h2, h3, g, h4, rfl⟩
    · exact ⟨_, rfl, fun _ => (C114_compressed hE hc _ _ _ _).mpr (.inl ⟨h1, rfl⟩)⟩
    · exact ⟨_, rfl, fun _ => (C114_compressed hE hc _ _ _ _).mpr (.inr ⟨h1, h2, h3, g, h4, rfl⟩)⟩
  | No =>
    rcases (C114_uncompressed hE hc _ _ _ _).mp h with ⟨h1, rfl⟩ | ⟨h1, h2, rfl⟩
    · exact ⟨_, rfl, fun _ => (C114_uncompressed hE hc _ _ _ _).mpr (.inl ⟨h1, rfl⟩)⟩
    · exact ⟨_, rfl, fun _ => (C114_uncompressed hE hc _ _ _ _).mpr (.inr ⟨h1, h2, rfl⟩)⟩

/-- The codec with the test for the subgroup as its check. -/
def SWCurve.blsWeak (E : SWCurve B) (c : BeField B) : Codec (Affine B) :=
  { E.blsCodec c with
    check := fun P => if E.inSubgroup P then .ok () else .error .invalidData
    batchCheck := loopCheck fun P => if E.inSubgroup P then .ok () else .error .invalidData }

theorem bls_weak_enc (hE : E.Lawful) (hc : c.Lawful) :
    (E.blsWeak c).Enc (fun m => (E.blsCodec c).Reads m .No) (fun P => E.inSubgroup P = true) where
  de m v bs P rest := by
    show (E.blsCodec c).de m v bs = .ok (P, rest) ↔ _
    constructor
    · intro h
      obtain ⟨h1, h2⟩ := bls_de.mp h
      have h3 : (E.blsCodec c).strict.de m .No bs = .ok (P, rest) := strict_de.mpr ⟨bls_de.mpr ⟨h1, by simp⟩, by simp⟩
      obtain ⟨used, e, hr⟩ := (bls_strict_orderly hE hc).stream _ _ _ _ _ h3
      exact ⟨used, e, hr, h2⟩
    · rintro ⟨used, rfl, hr, hv⟩
      exact bls_de.mpr ⟨(bls_de.mp (hr rest)).1, hv⟩
  batch l := by
    show loopCheck _ l = _ ↔ _
    rw [loopCheck_iff]
    refine forall₂_congr fun P _ => ?_
    cases E.inSubgroup P <;> simp

/-- C114: restricted to the points of the curve, and with full validation, the codec is lawful. -/
theorem C114_only (hE : E.Lawful) (hc : c.Lawful) :
    (E.blsCodec c).strict.Orderly ∧ ((E.blsCodec c).strict.only E.proper).Lawful ∧
    ∀ m v bs P rest, (m = .Yes ∨ v = .Yes) → (E.blsCodec c).strict.de m v bs = .ok (P, rest) → E.proper P = true := by
  have hr := C114_points (c := c) hE hc
  refine ⟨bls_strict_orderly hE hc, only_lawful (bls_strict_orderly hE hc) (bls_size hc) fun m P h => ?_, fun m v bs P rest hm hd => ?_⟩
  · cases m
    · exact (hr.2.1 P).mpr ((SWCurve.proper_iff P).mp h)
    · exact (hr.2.2 P).mpr (((SWCurve.proper_iff P).mp h).imp_right And.left)
  · obtain ⟨h1, h2⟩ := strict_de.mp hd
    rw [SWCurve.proper_iff]
    cases m with
    | Yes =>
      rcases (C114_compressed hE hc _ _ _ _).mp h1 with ⟨h3, -⟩ | ⟨h3, h4, -⟩
      · exact .inl h3
      · exact .inr ⟨h3, h4⟩
    | No =>
      rcases (C114_uncompressed hE hc _ _ _ _).mp h1 with ⟨h3, -⟩ | ⟨h3, -⟩
      · exact .inl h3
      · exact .inr ⟨h3, ((bls_valid P).mp (h2 (hm.resolve_left (by simp)))).1⟩

theorem bls_strict_eq {m : Compress} {bs : Bytes}
    (hP : ∀ P rest, E.blsRead c m bs = .ok (P, rest) → E.inSubgroup P = true → E.onCurve P = true) (v : Validate) :
    (E.blsCodec c).strict.de m v bs = (E.blsCodec c).de m v bs := by
  cases v with
  | No => rfl
  | Yes =>
    simp only [Codec.strict, SWCurve.blsCodec]
    cases h : E.blsRead c m bs with
    | error err => rfl
    | ok r =>
      obtain ⟨P, rest⟩ := r
      have hP := hP P rest h
      simp only [bind, Except.bind, pure, Except.pure, SWCurve.check]
      cases h1 : E.inSubgroup P
      · simp [h1]
      · simp [hP h1, h1]

/-- C114: in compressed form validation is full. -/
theorem C114_compressed_strict (hE : E.Lawful) (hc : c.Lawful) (v : Validate) (bs : Bytes) :
    (E.blsCodec c).de .Yes v bs = (E.blsCodec c).strict.de .Yes v bs := by
  refine (bls_strict_eq (fun P rest h _ => ?_) v).symm
  rcases (bls_read_compressed hE hc _ _ _).mp h with ⟨rfl, -⟩ | ⟨-, h2, -⟩
  · simp [SWCurve.onCurve, Affine.identity]
  · exact h2

/-- C114: and in both forms if the test for the subgroup rejects what is not on the curve. -/
theorem C114_strict (hs : ∀ P, E.inSubgroup P = true → E.onCurve P = true) : (E.blsCodec c).strict = E.blsCodec c := by
  show Codec.mk _ _ (E.blsCodec c).strict.de _ _ = _
  rw [show (E.blsCodec c).strict.de = (E.blsCodec c).de from
    funext fun m => funext fun v => funext fun bs => bls_strict_eq (fun P _ _ => hs P) v]

end points

/-! ### Composite values -/

section composite
variable [Field B] [DecidableEq B] [Field B'] [DecidableEq B'] {E : SWCurve B} {E' : SWCurve B'} {c : BeField B} {c' : BeField B'}

/-- C114: the property of C58 holds for every type. -/
theorem C114_canonical_composite (hE : E.Lawful) (hc : c.Lawful) (hE' : E'.Lawful) (hc' : c'.Lawful) (hn : E.NoOrderTwo) (hn' : E'.NoOrderTwo)
    {cF : Codec F} (hF : cF.Canonical) {cT : Codec GT} (hT : cT.Canonical) :
    (Com.codec (E.blsCodec c)).Canonical ∧
    (Commit.codec cF (E.blsCodec c)).Canonical ∧
    (CRS.codec (E.blsCodec c) (E'.blsCodec c') cT).Canonical ∧
    (EquProof.codec cF (E.blsCodec c) (E'.blsCodec c')).Canonical ∧
    (PPE.codec cF (E.blsCodec c) (E'.blsCodec c') cT).Canonical ∧
    (MSMEG1.codec cF (E.blsCodec c)).Canonical ∧
    (MSMEG2.codec cF (E'.blsCodec c')).Canonical := by
  have h := (C114_canonical hE hc).mpr hn
  have h' := (C114_canonical hE' hc').mpr hn'
  exact ⟨fun m v bs x rest => C58_com h m v bs rest x, fun m v bs x rest => C58_commit hF h m v bs rest x,
    fun m v bs x rest => C58_crs h h' hT m v bs rest x, fun m v bs x rest => C58_proof hF h h' m v bs rest x,
    fun m v bs x rest => C58_ppe hF h h' hT m v bs rest x, fun m v bs x rest => C58_msmeg1 hF h m v bs rest x,
    fun m v bs x rest => C58_msmeg2 hF h' m v bs rest x⟩

/-- C114: commitments, proofs and pairing product equations have their points in vectors, which are validated in full, in both forms. -/
theorem C114_vectors (cF : Codec F) (cT : Codec GT) :
    Commit.codec cF (E.blsCodec c) = Commit.codec cF (E.blsCodec c).strict ∧
    EquProof.codec cF (E.blsCodec c) (E'.blsCodec c') = EquProof.codec cF (E.blsCodec c).strict (E'.blsCodec c').strict ∧
    PPE.codec cF (E.blsCodec c) (E'.blsCodec c') cT = PPE.codec cF (E.blsCodec c).strict (E'.blsCodec c').strict cT := by
  simp only [Commit.codec, EquProof.codec, PPE.codec, vec_com_strict, vec_strict, and_self]

/-- C114: so are CRSs and multi-scalar equations in compressed form. -/
theorem C114_compressed_composite (hE : E.Lawful) (hc : c.Lawful) (hE' : E'.Lawful) (hc' : c'.Lawful) (cF : Codec F) (cT : Codec GT)
    (v : Validate) (bs : Bytes) :
    (CRS.codec (E.blsCodec c) (E'.blsCodec c') cT).de .Yes v bs =
      (CRS.codec (E.blsCodec c).strict (E'.blsCodec c').strict cT).de .Yes v bs ∧
    (MSMEG1.codec cF (E.blsCodec c)).de .Yes v bs = (MSMEG1.codec cF (E.blsCodec c).strict).de .Yes v bs ∧
    (MSMEG2.codec cF (E'.blsCodec c')).de .Yes v bs = (MSMEG2.codec cF (E'.blsCodec c').strict).de .Yes v bs := by
  simp only [CRS.codec, MSMEG1.codec, MSMEG2.codec, vec_com_strict, vec_strict, structCodec, prodCodec, C114_compressed_strict hE hc,
    C114_compressed_strict hE' hc', and_self]

/-- C114: what a CRS is read from. Its generators need not be on the curve, even with validation, if it is in uncompressed form. -/
theorem C114_crs (hE : E.Lawful) (hc : c.Lawful) (hE' : E'.Lawful) (hc' : c'.Lawful) {cT : Codec GT} (hT : cT.Orderly)
    (m : Compress) (v : Validate) (bs : Bytes) (x : CRS (Affine B) (Affine B') GT) (rest : Bytes) :
    (CRS.codec (E.blsCodec c) (E'.blsCodec c') cT).de m v bs = .ok (x, rest) ↔
      ∃ used, bs = used ++ rest ∧ x.In ((E.blsCodec c).Reads m .No) ((E'.blsCodec c').Reads m .No) (cT.Reads m .No) used ∧
        (v = .Yes → (∀ a ∈ x.u, a.Elems fun P => E.onCurve P = true ∧ E.inSubgroup P = true) ∧
          (∀ a ∈ x.v, a.Elems fun P => E'.onCurve P = true ∧ E'.inSubgroup P = true) ∧
          E.inSubgroup x.g1_gen = true ∧ E'.inSubgroup x.g2_gen = true ∧ cT.Valid x.gt_gen) := by
  have o := bls_strict_orderly hE hc
  have o' := bls_strict_orderly hE' hc'
  have key := (struct_enc (mk := fun ((u, v, g1, g2, gt) : List (Com (Affine B)) × List (Com (Affine B')) × Affine B × Affine B' × GT) =>
      (⟨u, v, g1, g2, gt⟩ : CRS (Affine B) (Affine B') GT)) (fields := fun x => (x.u, x.v, x.g1_gen, x.g2_gen, x.gt_gen))
    (fun _ => rfl) (fun _ => rfl)
    (prod_enc (vec_enc (com_enc o)) (prod_enc (vec_enc (com_enc o')) (prod_enc (bls_weak_enc hE hc) (prod_enc (bls_weak_enc hE' hc') hT.enc))))
    (S := fun m => CRS.In ((E.blsCodec c).Reads m .No) ((E'.blsCodec c').Reads m .No) (cT.Reads m .No))
    (valid' := fun x => (∀ a ∈ x.u, a.Elems fun P => E.onCurve P = true ∧ E.inSubgroup P = true) ∧
          (∀ a ∈ x.v, a.Elems fun P => E'.onCurve P = true ∧ E'.inSubgroup P = true) ∧
          E.inSubgroup x.g1_gen = true ∧ E'.inSubgroup x.g2_gen = true ∧ cT.Valid x.gt_gen)
    (fun m x bs => by
      constructor
      · rintro ⟨b0, b1, b2, b3, b4, rfl, h0, h1, h2, h3, h4⟩; exact ⟨b0, _, rfl, h0, b1, _, rfl, h1, b2, _, rfl, h2, b3, b4, rfl, h3, h4⟩
      · rintro ⟨b0, _, rfl, h0, b1, _, rfl, h1, b2, _, rfl, h2, b3, b4, rfl, h3, h4⟩; exact ⟨b0, b1, b2, b3, b4, rfl, h0, h1, h2, h3, h4⟩)
    (fun x => by simp only [← bls_valid (c := c), ← bls_valid (c := c')]; exact Iff.rfl)).de m v bs x rest
  rw [vec_com_strict, vec_com_strict] at key
  exact key

/-- C114: what a multi-scalar equation in G1 is read from. Its target need not be on the curve, even with validation, in uncompressed form. -/
theorem C114_msmeg1 (hE : E.Lawful) (hc : c.Lawful) {cF : Codec F} (hF : cF.Orderly)
    (m : Compress) (v : Validate) (bs : Bytes) (x : MSMEG1 F (Affine B)) (rest : Bytes) :
    (MSMEG1.codec cF (E.blsCodec c)).de m v bs = .ok (x, rest) ↔
      ∃ used, bs = used ++ rest ∧ x.In (cF.Reads m .No) ((E.blsCodec c).Reads m .No) used ∧
        (v = .Yes → (∀ P ∈ x.a_consts, E.onCurve P = true ∧ E.inSubgroup P = true) ∧ (∀ b ∈ x.b_consts, cF.Valid b) ∧
          (∀ r ∈ x.gamma, ∀ a ∈ r, cF.Valid a) ∧ E.inSubgroup x.target = true) := by
  have o := bls_strict_orderly hE hc
  have key := (struct_enc (mk := fun ((a, b, g, t) : List (Affine B) × List F × Matrix F × Affine B) => (⟨a, b, g, t⟩ : MSMEG1 F (Affine B)))
    (fields := fun x => (x.a_consts, x.b_consts, x.gamma, x.target)) (fun _ => rfl) (fun _ => rfl)
    (prod_enc (vec_enc o.enc) (prod_enc (vec_enc hF.enc) (prod_enc (vec_enc (vec_enc hF.enc)) (bls_weak_enc hE hc))))
    (S := fun m => MSMEG1.In (cF.Reads m .No) ((E.blsCodec c).Reads m .No))
    (valid' := fun x => (∀ P ∈ x.a_consts, E.onCurve P = true ∧ E.inSubgroup P = true) ∧ (∀ b ∈ x.b_consts, cF.Valid b) ∧
          (∀ r ∈ x.gamma, ∀ a ∈ r, cF.Valid a) ∧ E.inSubgroup x.target = true)
    (fun m x bs => by
      constructor
      · rintro ⟨b0, b1, b2, b3, rfl, h0, h1, h2, h3⟩; exact ⟨b0, _, rfl, h0, b1, _, rfl, h1, b2, b3, rfl, h2, h3⟩
      · rintro ⟨b0, _, rfl, h0, b1, _, rfl, h1, b2, b3, rfl, h2, h3⟩; exact ⟨b0, b1, b2, b3, rfl, h0, h1, h2, h3⟩)
    (fun x => by simp only [← bls_valid (c := c)]; exact Iff.rfl)).de m v bs x rest
  rw [vec_strict] at key
  exact key

/-- C114: what a multi-scalar equation in G2 is read from. -/
theorem C114_msmeg2 (hE' : E'.Lawful) (hc' : c'.Lawful) {cF : Codec F} (hF : cF.Orderly)
    (m : Compress) (v : Validate) (bs : Bytes) (x : MSMEG2 F (Affine B')) (rest : Bytes) :
    (MSMEG2.codec cF (E'.blsCodec c')).de m v bs = .ok (x, rest) ↔
      ∃ used, bs = used ++ rest ∧ x.In (cF.Reads m .No) ((E'.blsCodec c').Reads m .No) used ∧
        (v = .Yes → (∀ a ∈ x.a_consts, cF.Valid a) ∧ (∀ P ∈ x.b_consts, E'.onCurve P = true ∧ E'.inSubgroup P = true) ∧
          (∀ r ∈ x.gamma, ∀ a ∈ r, cF.Valid a) ∧ E'.inSubgroup x.target = true) := by
  have o := bls_strict_orderly hE' hc'
  have key := (struct_enc (mk := fun ((a, b, g, t) : List F × List (Affine B') × Matrix F × Affine B') => (⟨a, b, g, t⟩ : MSMEG2 F (Affine B')))
    (fields := fun x => (x.a_consts, x.b_consts, x.gamma, x.target)) (fun _ => rfl) (fun _ => rfl)
    (prod_enc (vec_enc hF.enc) (prod_enc (vec_enc o.enc) (prod_enc (vec_enc (vec_enc hF.enc)) (bls_weak_enc hE' hc'))))
    (S := fun m => MSMEG2.In (cF.Reads m .No) ((E'.blsCodec c').Reads m .No))
    (valid' := fun x => (∀ a ∈ x.a_consts, cF.Valid a) ∧ (∀ P ∈ x.b_consts, E'.onCurve P = true ∧ E'.inSubgroup P = true) ∧
          (∀ r ∈ x.gamma, ∀ a ∈ r, cF.Valid a) ∧ E'.inSubgroup x.target = true)
    (fun m x bs => by
      constructor
      · rintro ⟨b0, b1, b2, b3, rfl, h0, h1, h2, h3⟩; exact ⟨b0, _, rfl, h0, b1, _, rfl, h1, b2, b3, rfl, h2, h3⟩
      · rintro ⟨b0, _, rfl, h0, b1, _, rfl, h1, b2, b3, rfl, h2, h3⟩; exact ⟨b0, b1, b2, b3, rfl, h0, h1, h2, h3⟩)
    (fun x => by simp only [← bls_valid (c := c')]; exact Iff.rfl)).de m v bs x rest
  rw [vec_strict] at key
  exact key

/-- C114: what a proof is read from: with validation, all its points are on the curves and in the subgroups, in both forms. -/
theorem C114_proof (hE : E.Lawful) (hc : c.Lawful) (hE' : E'.Lawful) (hc' : c'.Lawful) {cF : Codec F} (hF : cF.Orderly)
    (m : Compress) (v : Validate) (bs : Bytes) (x : EquProof F (Affine B) (Affine B')) (rest : Bytes) :
    (EquProof.codec cF (E.blsCodec c) (E'.blsCodec c')).de m v bs = .ok (x, rest) ↔
      ∃ used, bs = used ++ rest ∧ x.In (cF.Reads m .No) ((E.blsCodec c).Reads m .No) ((E'.blsCodec c').Reads m .No) used ∧
        (v = .Yes → x.Elems cF.Valid (fun P => E.onCurve P = true ∧ E.inSubgroup P = true)
          fun P => E'.onCurve P = true ∧ E'.inSubgroup P = true) := by
  rw [(C114_vectors (E := E) (c := c) (E' := E') (c' := c') cF cF).2.1, C109_proof hF (bls_strict_orderly hE hc) (bls_strict_orderly hE' hc')]
  simp only [← bls_valid (c := c), ← bls_valid (c := c')]
  exact Iff.rfl

/-- C114: what a list of commitments is read from. -/
theorem C114_commit (hE : E.Lawful) (hc : c.Lawful) {cF : Codec F} (hF : cF.Orderly)
    (m : Compress) (v : Validate) (bs : Bytes) (x : Commit F (Affine B)) (rest : Bytes) :
    (Commit.codec cF (E.blsCodec c)).de m v bs = .ok (x, rest) ↔
      ∃ used, bs = used ++ rest ∧ x.In (cF.Reads m .No) ((E.blsCodec c).Reads m .No) used ∧
        (v = .Yes → x.Elems cF.Valid fun P => E.onCurve P = true ∧ E.inSubgroup P = true) := by
  rw [(C114_vectors (E := E) (c := c) (E' := E) (c' := c) cF cF).1, C109_commit hF (bls_strict_orderly hE hc)]
  simp only [← bls_valid (c := c)]
  exact Iff.rfl

/-- C114: what a pairing product equation is read from. -/
theorem C114_ppe (hE : E.Lawful) (hc : c.Lawful) (hE' : E'.Lawful) (hc' : c'.Lawful) {cF : Codec F} (hF : cF.Orderly) {cT : Codec GT} (hT : cT.Orderly)
    (m : Compress) (v : Validate) (bs : Bytes) (x : PPE F (Affine B) (Affine B') GT) (rest : Bytes) :
    (PPE.codec cF (E.blsCodec c) (E'.blsCodec c') cT).de m v bs = .ok (x, rest) ↔
      ∃ used, bs = used ++ rest ∧
        x.In (cF.Reads m .No) ((E.blsCodec c).Reads m .No) ((E'.blsCodec c').Reads m .No) (cT.Reads m .No) used ∧
        (v = .Yes → x.Elems cF.Valid (fun P => E.onCurve P = true ∧ E.inSubgroup P = true)
          (fun P => E'.onCurve P = true ∧ E'.inSubgroup P = true) cT.Valid) := by
  rw [(C114_vectors (E := E) (c := c) (E' := E') (c' := c') cF cT).2.2, C109_ppe hF (bls_strict_orderly hE hc) (bls_strict_orderly hE' hc') hT]
  simp only [← bls_valid (c := c), ← bls_valid (c := c')]
  exact Iff.rfl

/-- C114: a CRS whose first generator is off the curve but passes the test for the subgroup: it is read back with validation in uncompressed
form, though its check fails. In compressed form it is not read back. -/
theorem C114_offcurve_crs (hE : E.Lawful) (hc : c.Lawful) (hE' : E'.Lawful) (hc' : c'.Lawful) {cT : Codec GT} (hT : cT.Lawful)
    (x : CRS (Affine B) (Affine B') GT) (hx : x.Fits) (hp : (∀ a ∈ x.u, a.Elems fun P => E.proper P = true ∧ E.inSubgroup P = true) ∧
      (∀ a ∈ x.v, a.Elems fun P => E'.proper P = true ∧ E'.inSubgroup P = true) ∧ E'.proper x.g2_gen = true ∧
      E'.inSubgroup x.g2_gen = true ∧ cT.Valid x.gt_gen)
    (hg : x.g1_gen.infinity = false) (ho : E.onCurve x.g1_gen = false) (hs : E.inSubgroup x.g1_gen = true) (rest : Bytes) :
    (CRS.codec (E.blsCodec c) (E'.blsCodec c') cT).de .No .Yes
      ((CRS.codec (E.blsCodec c) (E'.blsCodec c') cT).ser .No x ++ rest) = .ok (x, rest) ∧
    ¬ (CRS.codec (E.blsCodec c) (E'.blsCodec c') cT).Valid x ∧
    (∀ v bs rest, (CRS.codec (E.blsCodec c) (E'.blsCodec c') cT).de .Yes v bs ≠ .ok (x, rest)) := by
  have r : ∀ P, E.proper P = true → (E.blsCodec c).Returns .No P := fun P h =>
    ((C114_points hE hc).2.2 P).mpr (((SWCurve.proper_iff P).mp h).imp_right And.left)
  have r' : ∀ P, E'.proper P = true → (E'.blsCodec c').Returns .No P := fun P h =>
    ((C114_points hE' hc').2.2 P).mpr (((SWCurve.proper_iff P).mp h).imp_right And.left)
  have on : ∀ P, E.proper P = true → E.onCurve P = true := fun P h => by
    rcases (SWCurve.proper_iff P).mp h with rfl | h
    · simp [SWCurve.onCurve, Affine.identity]
    · exact h.2
  have on' : ∀ P, E'.proper P = true → E'.onCurve P = true := fun P h => by
    rcases (SWCurve.proper_iff P).mp h with rfl | h
    · simp [SWCurve.onCurve, Affine.identity]
    · exact h.2
  obtain ⟨pu, pv, p2, s2, vT⟩ := hp
  refine ⟨(C114_crs hE hc hE' hc' hT.orderly _ _ _ _ _).mpr ⟨_, rfl, ?_, fun _ =>
    ⟨fun a ha => ⟨⟨on _ (pu a ha).1.1, (pu a ha).1.2⟩, on _ (pu a ha).2.1, (pu a ha).2.2⟩,
      fun a ha => ⟨⟨on' _ (pv a ha).1.1, (pv a ha).1.2⟩, on' _ (pv a ha).2.1, (pv a ha).2.2⟩, hs, s2, vT⟩⟩, ?_, ?_⟩
  · refine ⟨_, _, _, _, _, rfl, ?_, ?_, ((C114_points hE hc).2.2 _).mpr (.inr hg), r' _ p2, hT.returns _ _⟩
    · exact vecIn_ser hx.1 fun a ha => ⟨_, _, rfl, r _ (pu a ha).1.1, r _ (pu a ha).2.1⟩
    · exact vecIn_ser hx.2 fun a ha => ⟨_, _, rfl, r' _ (pv a ha).1.1, r' _ (pv a ha).2.1⟩
  · intro h
    simp only [Codec.Valid, CRS.codec, structCodec, prodCodec, ser_bind_ok] at h
    obtain ⟨-, -, -, -, u, h1, -⟩ := h
    have := ((bls_valid (c := c) _).mp h1).1
    rw [ho] at this
    simp at this
  · intro v bs rest h
    obtain ⟨used, -, ⟨b0, b1, b2, b3, b4, -, -, -, h2, -⟩, -⟩ := (C114_crs hE hc hE' hc' hT.orderly _ _ _ _ _).mp h
    rcases (C114_compressed hE hc _ _ _ _).mp (h2 []) with ⟨h3, -⟩ | ⟨-, h3, -⟩
    · rw [h3] at hg; simp [Affine.identity] at hg
    · rw [ho] at h3; simp at h3

end composite

/-! ### A concrete curve

`y² = x³ + 2` over the field of 7 elements has 9 points and none of order two; those with `x = 0` and the identity are a subgroup of order 3. The test for the subgroup
looks at `x` only, so that it takes `(0, 1)` for a point. -/

namespace Ex

def be7 : BeField K := beFp 7 1

theorem be7_lawful : be7.Lawful := (C114_fp (by norm_num)).1

/-- The size of the coordinates of BLS12-381: 381 bits in 48 bytes leave three bits. -/
example (p : Nat) (h : p < 2 ^ 381) [NeZero p] : (beFp p 48).Lawful := (C114_fp (by norm_num at h ⊢; omega)).1

theorem be49_lawful : (beQuad be7 (C := K × K) id id).Lawful := (C114_quad be7_lawful id id (fun _ => rfl) (fun _ => rfl) rfl).1

/-- The second component comes first. -/
example : (beQuad be7 (C := K × K) id id).enc (2, 5) = [5, 2] := by decide

def bls7 : SWCurve K where
  a := 0
  b := 2
  sqrt v := [0, 1, 2, 3, 4, 5, 6].find? fun r : K => r * r = v
  le x y := decide (x.val ≤ y.val)
  inSubgroup P := P.infinity || decide (P.x = 0)

theorem bls7_lawful : bls7.Lawful where
  root := by decide
  complete := by decide
  total := by decide
  antisymm := by decide
  identity := by decide

theorem bls7_noOrderTwo : bls7.NoOrderTwo := by unfold SWCurve.NoOrderTwo; decide

/-- Points of order 3, the last of them outside the subgroup, and a pair that is not on the curve. -/
def q3 : Affine K := ⟨0, 3, false⟩
def q4 : Affine K := ⟨0, 4, false⟩
def q9 : Affine K := ⟨3, 1, false⟩
def qOff : Affine K := ⟨0, 1, false⟩

abbrev bCodec := bls7.blsCodec be7

/-- What is written. -/
example : bCodec.ser .Yes q3 = [0x80] ∧ bCodec.ser .Yes q4 = [0xa0] ∧ bCodec.ser .No q4 = [0, 4] ∧ bCodec.ser .Yes Affine.identity = [0xc0] ∧
    bCodec.ser .No Affine.identity = [0x40, 0] := by decide

/-- What is refused: a coordinate too large, the flag of a sign without that of compression or with that of infinity, a
coordinate with the flag of infinity, and a point in the other form. -/
example : bCodec.de .Yes .No [0x87] = .error .invalidData ∧ bCodec.de .No .No [0x20, 4] = .error .invalidData ∧
    bCodec.de .Yes .No [0xe0] = .error .invalidData ∧ bCodec.de .Yes .No [0xc1] = .error .invalidData ∧
    bCodec.de .No .No [0x40, 1] = .error .invalidData ∧ bCodec.de .Yes .No [0] = .error .unexpectedFlags ∧
    bCodec.de .No .No [0x80, 4] = .error .unexpectedFlags ∧ bCodec.de .No .No [0] = .error .invalidData := by decide

variable (m : Compress) (v : Validate) (bs rest : Bytes)

example := C114_errors (E := bls7) be7_lawful v
example := C114_compressed bls7_lawful be7_lawful v bs q3 rest
example := C114_uncompressed bls7_lawful be7_lawful v bs q3 rest

example : bCodec.Returns .Yes q3 ∧ bCodec.Returns .Yes q9 ∧ ¬ bCodec.Returns .Yes qOff ∧ bCodec.Returns .No qOff := by
  obtain ⟨-, h, h'⟩ := C114_points bls7_lawful be7_lawful
  rw [h, h, h, h']
  decide

example : bCodec.Unique .Yes q3 ∧ bCodec.Unique .Yes Affine.identity ∧ bCodec.Unique .No q3 := by
  have h := C114_unique_compressed bls7_lawful be7_lawful
  exact ⟨(h q3 (by decide)).mpr (by decide), (h _ (by decide)).mpr (by decide), C114_unique_uncompressed bls7_lawful be7_lawful q3⟩

/-- The curve of C110 has points of order two, which have two encodings in this format as well. -/
example : ¬ (curve7.blsCodec be7).Unique .Yes pt2 ∧ ¬ (curve7.blsCodec be7).Canonical := by
  rw [C114_unique_compressed curve7_lawful be7_lawful pt2 (by decide), C114_canonical curve7_lawful be7_lawful]
  exact ⟨by decide, by unfold SWCurve.NoOrderTwo; decide⟩

theorem bCodec_canonical : bCodec.Canonical := (C114_canonical bls7_lawful be7_lawful).mpr bls7_noOrderTwo

example := C114_canonical_composite bls7_lawful be7_lawful bls7_lawful be7_lawful bls7_noOrderTwo bls7_noOrderTwo kCodec_canonical kCodec_canonical

theorem bo : bCodec.strict.Orderly := (C114_only bls7_lawful be7_lawful).1

example : (bCodec.strict.only bls7.proper).Lawful := (C114_only bls7_lawful be7_lawful).2.1

/-- The results of C110 about restricted codecs apply to the codec with full validation. -/
example := (C110_only_commit (p1 := bls7.proper) ko bo m v bs rest).2 fun m bs P rest =>
  (C114_only bls7_lawful be7_lawful).2.2 m .Yes bs P rest (.inr rfl)

/-- The pair off the curve is read with validation, alone but not in a vector; and not in compressed form. -/
example : bCodec.de .No .Yes [0, 1] = .ok (qOff, []) ∧ bCodec.strict.de .No .Yes [0, 1] = .error .invalidData ∧
    (vecCodec bCodec).de .No .Yes [1, 0, 0, 0, 0, 0, 0, 0, 0, 1] = .error .invalidData ∧ ¬ bCodec.Valid qOff := by
  refine ⟨by decide, by decide, by decide, fun h => ?_⟩
  exact absurd ((bls_valid qOff).mp h).1 (by decide)

/-- A test for the subgroup that rejects what is not on the curve. -/
def bls7s : SWCurve K := { bls7 with inSubgroup := fun P => P.infinity || decide (P.x = 0 ∧ P.y * P.y = 2) }

example : (bls7s.blsCodec be7).strict = bls7s.blsCodec be7 := C114_strict fun P => by
  obtain ⟨x, y, i⟩ := P
  cases i
  · revert x y; decide
  · simp [SWCurve.onCurve]

example := C114_compressed_strict bls7_lawful be7_lawful v bs
example := C114_vectors (E := bls7) (c := be7) (E' := bls7) (c' := be7) kCodec kCodec
example := C114_compressed_composite bls7_lawful be7_lawful bls7_lawful be7_lawful kCodec kCodec v bs
example := C114_commit bls7_lawful be7_lawful ko m v bs ⟨[⟨q3, q9⟩], [[2, 3]]⟩ rest
example := C114_proof bls7_lawful be7_lawful bls7_lawful be7_lawful ko m v bs ⟨[⟨q3, q4⟩], [⟨q9, q3⟩], .Quadratic, [[2]]⟩ rest
example := C114_ppe bls7_lawful be7_lawful bls7_lawful be7_lawful ko ko m v bs ⟨[q3], [q4], [[2]], 1⟩ rest
example := C114_msmeg1 bls7_lawful be7_lawful ko m v bs ⟨[q3], [4], [[2]], qOff⟩ rest
example := C114_msmeg2 bls7_lawful be7_lawful ko m v bs ⟨[3], [q4], [[2]], qOff⟩ rest

/-- A CRS with a generator off the curve. -/
def crsOff : CRS (Affine K) (Affine K) K := ⟨[⟨q3, q4⟩, ⟨q4, q4⟩], [⟨q3, q4⟩, ⟨q4, q4⟩], qOff, q3, 1⟩

example := C114_crs bls7_lawful be7_lawful bls7_lawful be7_lawful ko m v bs crsOff rest

example := C114_offcurve_crs bls7_lawful be7_lawful bls7_lawful be7_lawful kCodec_lawful crsOff (by simp [CRS.Fits, Fits64, crsOff])
  ⟨by simp only [crsOff, Com.Elems]; decide, by simp only [crsOff, Com.Elems]; decide, by decide, by decide, rfl⟩ rfl (by decide) (by decide) rest

end Ex
end GS
