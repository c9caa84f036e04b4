import Verif.Spec.EncodedMessage
import Verif.Props.Element
import Verif.Lemmas.Message

/-! # C109, C110 for messages (C107) -/

namespace GS
variable {F G1 G2 B B' : Type}

section
variable {cF : Codec F} {c1 : Codec G1} {c2 : Codec G2} {p1 : G1 → Bool} {p2 : G2 → Bool}

theorem msg_enc (hF : cF.Orderly) (h1 : c1.Orderly) (h2 : c2.Orderly) :
    (CProof.codec cF c1 c2).Enc (fun m => CProof.In (cF.Reads m .No) (c1.Reads m .No) (c2.Reads m .No)) (CProof.Elems cF.Valid c1.Valid c2.Valid) :=
  struct_enc (fun _ => rfl) (fun _ => rfl) (prod_enc (commit_enc hF h1) (prod_enc (commit_enc hF h2) (vec_enc (proof_enc hF h1 h2))))
    (fun m x bs => by
      constructor
      · rintro ⟨b0, b1, b2, rfl, h0, h1, h2⟩; exact ⟨b0, _, rfl, h0, b1, b2, rfl, h1, h2⟩
      · rintro ⟨b0, _, rfl, h0, b1, b2, rfl, h1, h2⟩; exact ⟨b0, b1, b2, rfl, h0, h1, h2⟩) (fun x => by simp [CProof.Elems])

/-- C109: reading returns a message exactly when the input begins with an encoding of it, which is made of encodings of its elements. -/
theorem C109_message (hF : cF.Orderly) (h1 : c1.Orderly) (h2 : c2.Orderly) (m : Compress) (v : Validate) (bs : Bytes) (cp : CProof F G1 G2)
    (rest : Bytes) :
    (CProof.codec cF c1 c2).de m v bs = .ok (cp, rest) ↔
      ∃ used, bs = used ++ rest ∧ cp.In (cF.Reads m .No) (c1.Reads m .No) (c2.Reads m .No) used ∧
        (v = .Yes → cp.Elems cF.Valid c1.Valid c2.Valid) :=
  (msg_enc hF h1 h2).de m v bs cp rest

/-- C109: a message is read back if each of its elements is. -/
theorem C109_round_message (hF : cF.Orderly) (h1 : c1.Orderly) (h2 : c2.Orderly) (m : Compress) (v : Validate) (cp : CProof F G1 G2)
    (hx : cp.Fits) (hr : cp.Elems (cF.Returns m) (c1.Returns m) (c2.Returns m)) (hv : v = .Yes → cp.Elems cF.Valid c1.Valid c2.Valid)
    (rest : Bytes) : (CProof.codec cF c1 c2).de m v ((CProof.codec cF c1 c2).ser m cp ++ rest) = .ok (cp, rest) := by
  refine (C109_message hF h1 h2 m v _ cp rest).mpr ⟨_, rfl, ?_, hv⟩
  have e1 : (Commit.codec cF c1).Reads m .No cp.xcoms ((Commit.codec cF c1).ser m cp.xcoms) := fun rest =>
    C109_round_commit hF h1 m .No _ hx.1 hr.1 (by simp) rest
  have e2 : (Commit.codec cF c2).Reads m .No cp.ycoms ((Commit.codec cF c2).ser m cp.ycoms) := fun rest =>
    C109_round_commit hF h2 m .No _ hx.2.1 hr.2.1 (by simp) rest
  refine ⟨_, _, _, rfl, (commit_enc hF h1).reads.mp e1, (commit_enc hF h2).reads.mp e2, vecIn_ser hx.2.2.1 fun pf hpf => ?_⟩
  exact (proof_enc hF h1 h2).reads.mp fun rest => C109_round_proof hF h1 h2 m .No _ (hx.2.2.2 pf hpf) (hr.2.2 pf hpf) (by simp) rest

theorem msg_unique (m : Compress) (cp : CProof F G1 G2) : (CProof.codec cF c1 c2).Unique m cp ↔
    (prodCodec (Commit.codec cF c1) (prodCodec (Commit.codec cF c2) (vecCodec (EquProof.codec cF c1 c2)))).Unique m
      (cp.xcoms, cp.ycoms, cp.equ_proofs) := struct_unique (fun _ => rfl) (fun _ => rfl)

theorem commit_returns {G : Type} {c : Codec G} (hF : cF.Orderly) (h : c.Orderly) {m : Compress} {x : Commit F G} (hx : x.Fits)
    (hr : x.Elems (cF.Returns m) (c.Returns m)) : (Commit.codec cF c).Returns m x :=
  fun rest => C109_round_commit hF h m .No _ hx hr (by simp) rest

theorem proof_returns (hF : cF.Orderly) (h1 : c1.Orderly) (h2 : c2.Orderly) {m : Compress} {x : EquProof F G1 G2} (hx : x.Fits)
    (hr : x.Elems (cF.Returns m) (c1.Returns m) (c2.Returns m)) : (EquProof.codec cF c1 c2).Returns m x :=
  fun rest => C109_round_proof hF h1 h2 m .No _ hx hr (by simp) rest

theorem parts_unique {α β γ : Type} {a : Codec α} {b : Codec β} {c : Codec γ} {Ra : Compress → α → Bytes → Prop}
    {Rb : Compress → β → Bytes → Prop} {Rc : Compress → γ → Bytes → Prop} {va vb vc} (na : a.Enc Ra va) (nb : b.Enc Rb vb)
    (nc : c.Enc Rc vc) {m : Compress} {x : α} {y : β} {l : List γ} (hl : Fits64 l) (ra : a.Returns m x) (rb : b.Returns m y)
    (rc : ∀ z ∈ l, c.Returns m z) :
    (prodCodec a (prodCodec b (vecCodec c))).Unique m (x, y, l) ↔ a.Unique m x ∧ b.Unique m y ∧ ∀ z ∈ l, c.Unique m z := by
  rw [prod_unique na (prod_enc nb (vec_enc nc)) ra (prod_returns nb (vec_enc nc) rb (vec_returns nc hl rc)),
    prod_unique nb (vec_enc nc) rb (vec_returns nc hl rc), vec_unique nc hl rc]

/-- C109: a message has no other encoding exactly if each of its elements has no other. -/
theorem C109_unique_message (hF : cF.Orderly) (h1 : c1.Orderly) (h2 : c2.Orderly) (m : Compress) (cp : CProof F G1 G2)
    (hx : cp.Fits) (hr : cp.Elems (cF.Returns m) (c1.Returns m) (c2.Returns m)) :
    (CProof.codec cF c1 c2).Unique m cp ↔ cp.Elems (cF.Unique m) (c1.Unique m) (c2.Unique m) := by
  obtain ⟨f1, f2, f3, f4⟩ := hx
  obtain ⟨r1, r2, r3⟩ := hr
  rw [msg_unique, parts_unique (commit_enc hF h1) (commit_enc hF h2) (proof_enc hF h1 h2) f3 (commit_returns hF h1 f1 r1)
    (commit_returns hF h2 f2 r2) fun pf hpf => proof_returns hF h1 h2 (f4 pf hpf) (r3 pf hpf)]
  rw [C109_unique_commit hF h1 m _ f1 r1, C109_unique_commit hF h2 m _ f2 r2, CProof.Elems]
  exact and_congr_right fun _ => and_congr_right fun _ =>
    forall₂_congr fun pf hpf => C109_unique_proof hF h1 h2 m pf (f4 pf hpf) (r3 pf hpf)

theorem commit_in_on {G : Type} {c : Codec G} {p : G → Bool} (RF : F → Bytes → Prop) (m : Compress) (x : Commit F {x // p x = true}) (bs : Bytes) :
    (x.on (·.1)).In RF (c.Reads m .No) bs ↔ x.In RF ((c.only p).Reads m .No) bs := by
  simp only [Commit.In, Commit.on, com_in_on, only_reads_fun]

theorem proof_in_on (RF : F → Bytes → Prop) (m : Compress) :
    (fun (x : EquProof F {x // p1 x = true} {x // p2 x = true}) => (x.on (·.1) (·.1)).In RF (c1.Reads m .No) (c2.Reads m .No)) =
      EquProof.In RF ((c1.only p1).Reads m .No) ((c2.only p2).Reads m .No) := by
  funext x bs
  apply propext
  simp only [EquProof.In, EquProof.on, com_in_on, only_reads_fun]

/-- C110: reading a message with the restricted codec is reading it with the codec itself, and validated messages are of this kind. -/
theorem C110_only_message (hF : cF.Orderly) (h1 : c1.Orderly) (h2 : c2.Orderly) (m : Compress) (v : Validate) (bs rest : Bytes) :
    (∀ cp, (CProof.codec cF (c1.only p1) (c2.only p2)).de m v bs = .ok (cp, rest) ↔
      (CProof.codec cF c1 c2).de m v bs = .ok (cp.on (·.1) (·.1), rest)) ∧
    ((∀ m bs x rest, c1.de m .Yes bs = .ok (x, rest) → p1 x = true) → (∀ m bs x rest, c2.de m .Yes bs = .ok (x, rest) → p2 x = true) →
      ∀ y, (CProof.codec cF c1 c2).de m .Yes bs = .ok (y, rest) →
      ∃ cp : CProof F {x // p1 x = true} {x // p2 x = true}, y = cp.on (·.1) (·.1)) := by
  refine ⟨fun x => ?_, fun hp hp' y hd => ?_⟩
  · rw [C109_message hF (only_orderly h1) (only_orderly h2), C109_message hF h1 h2]
    simp only [CProof.In, CProof.Elems, CProof.on, commit_in_on, vecIn_map, proof_in_on]
    simp only [Commit.Elems, Commit.on, EquProof.Elems, EquProof.on, List.forall_mem_map, only_valid]
    exact Iff.rfl
  · obtain ⟨used, -, ⟨b0, b1, b2, -, i0, i1, i2⟩, hv⟩ := (C109_message hF h1 h2 _ _ _ _ _).mp hd
    obtain ⟨v0, v1, v2⟩ := hv rfl
    obtain ⟨x, hx⟩ := (C110_only_commit (p1 := p1) hF h1 m .Yes b0 []).2 hp y.xcoms
      ((C109_commit hF h1 _ _ _ _ _).mpr ⟨b0, by simp, i0, fun _ => v0⟩)
    obtain ⟨x', hx'⟩ := (C110_only_commit (p1 := p2) hF h2 m .Yes b1 []).2 hp' y.ycoms
      ((C109_commit hF h2 _ _ _ _ _).mpr ⟨b1, by simp, i1, fun _ => v1⟩)
    have key : ∀ pf ∈ y.equ_proofs, ∃ pf' : EquProof F {x // p1 x = true} {x // p2 x = true}, pf = pf'.on (·.1) (·.1) := by
      intro pf hpf
      obtain ⟨b, hb⟩ := vecIn_mem i2 hpf
      exact (C110_only_proof (p1 := p1) (p2 := p2) hF h1 h2 m .Yes b []).2 hp hp' pf
        ((C109_proof hF h1 h2 _ _ _ _ _).mpr ⟨b, by simp, hb, fun _ => v2 pf hpf⟩)
    have : ∃ l : List (EquProof F {x // p1 x = true} {x // p2 x = true}), l.map (EquProof.on (·.1) (·.1)) = y.equ_proofs := by
      generalize y.equ_proofs = l at key
      induction l with
      | nil => exact ⟨[], rfl⟩
      | cons a l ih =>
        obtain ⟨l', rfl⟩ := ih fun a ha => key a (by simp [ha])
        obtain ⟨a', rfl⟩ := key a (by simp)
        exact ⟨a' :: l', rfl⟩
    obtain ⟨l, hl⟩ := this
    exact ⟨⟨x, x', l⟩, by rw [CProof.on, hl, ← hx, ← hx']⟩

/-- C110: and both write the same bytes. -/
theorem C110_only_ser_message (m : Compress) (cp : CProof F {x // p1 x = true} {x // p2 x = true}) :
    (CProof.codec cF (c1.only p1) (c2.only p2)).ser m cp = (CProof.codec cF c1 c2).ser m (cp.on (·.1) (·.1)) := by
  have e := fun pf => C110_only_ser_proof (cF := cF) (c1 := c1) (c2 := c2) (p1 := p1) (p2 := p2) m pf
  simp only [CProof.codec, structCodec, prodCodec, CProof.on, vecCodec, List.length_map, List.map_map]
  rw [C110_only_ser_commit, C110_only_ser_commit]
  simp only [Function.comp_def, ← e]

end

variable [Field B] [DecidableEq B] {E : SWCurve B} {c : FieldCodec B} [Field B'] [DecidableEq B'] {E' : SWCurve B'}
  {c' : FieldCodec B'}

/-- C110: a message in compressed form has one encoding exactly if it contains no identity and no point of order two. -/
theorem C110_message_compressed (hE : E.Lawful) (hc : c.Lawful) (hE' : E'.Lawful) (hc' : c'.Lawful) {cF : Codec F} (hF : cF.Lawful)
    (hFc : cF.Canonical) (cp : CProof F (Affine B) (Affine B')) (hx : cp.Fits)
    (hp : cp.Elems (fun _ => True) (fun P => E.proper P = true) (fun P => E'.proper P = true)) :
    (CProof.codec cF (E.codec c) (E'.codec c')).Unique .Yes cp ↔
      cp.Elems (fun _ => True) (fun P => P ≠ Affine.identity ∧ P.y ≠ -P.y) (fun P => P ≠ Affine.identity ∧ P.y ≠ -P.y) := by
  have r : ∀ P, E.proper P = true → (E.codec c).Returns .Yes P := fun P h =>
    (SWCurve.returns_compressed hE hc P).mpr ((SWCurve.proper_iff P).mp h)
  have r' : ∀ P, E'.proper P = true → (E'.codec c').Returns .Yes P := fun P h =>
    (SWCurve.returns_compressed hE' hc' P).mpr ((SWCurve.proper_iff P).mp h)
  have uF : ∀ a, cF.Unique .Yes a := fun a bs hb => by simpa using hFc _ _ _ _ _ (hb [])
  have u := C110_unique_compressed hE hc
  have u' := C110_unique_compressed hE' hc'
  rw [C109_unique_message hF.orderly (SWCurve.orderly hE hc) (SWCurve.orderly hE' hc') .Yes cp hx
    ⟨⟨fun a ha => ⟨r _ (hp.1.1 a ha).1, r _ (hp.1.1 a ha).2⟩, fun _ _ a _ => hF.returns _ a⟩,
      ⟨fun a ha => ⟨r' _ (hp.2.1.1 a ha).1, r' _ (hp.2.1.1 a ha).2⟩, fun _ _ a _ => hF.returns _ a⟩,
      fun pf hpf => ⟨fun a ha => ⟨r' _ ((hp.2.2 pf hpf).1 a ha).1, r' _ ((hp.2.2 pf hpf).1 a ha).2⟩,
        fun a ha => ⟨r _ ((hp.2.2 pf hpf).2.1 a ha).1, r _ ((hp.2.2 pf hpf).2.1 a ha).2⟩, fun _ _ a _ => hF.returns _ a⟩⟩]
  refine and_congr (and_congr (forall₂_congr fun a ha => ?_) (by simp [uF])) (and_congr (and_congr (forall₂_congr fun a ha => ?_) (by simp [uF]))
    (forall₂_congr fun pf hpf => and_congr (forall₂_congr fun a ha => ?_) (and_congr (forall₂_congr fun a ha => ?_) (by simp [uF]))))
  · exact and_congr (u _ (hp.1.1 a ha).1) (u _ (hp.1.1 a ha).2)
  · exact and_congr (u' _ (hp.2.1.1 a ha).1) (u' _ (hp.2.1.1 a ha).2)
  · exact and_congr (u' _ ((hp.2.2 pf hpf).1 a ha).1) (u' _ ((hp.2.2 pf hpf).1 a ha).2)
  · exact and_congr (u _ ((hp.2.2 pf hpf).2.1 a ha).1) (u _ ((hp.2.2 pf hpf).2.1 a ha).2)

/-- C110: whoever sees a message in uncompressed form can turn it into other bytes that get the same answer, also with validation. -/
theorem C110_message_uncompressed (hE : E.Lawful) (hc : c.Lawful) (hE' : E'.Lawful) (hc' : c'.Lawful) {cF : Codec F} (hF : cF.Lawful)
    (cp : CProof F (Affine B) (Affine B')) (hx : cp.Fits)
    (hv : cp.Elems cF.Valid (fun P => E.proper P = true ∧ E.inSubgroup P = true) (fun P => E'.proper P = true ∧ E'.inSubgroup P = true))
    (hne : cp.xcoms.coms ≠ []) (verify : CProof F (Affine B) (Affine B') → Res Bool) :
    ∃ bs, bs ≠ (CProof.codec cF (E.codec c) (E'.codec c')).ser .No cp ∧ ∀ v rest,
      receive cF (E.codec c) (E'.codec c') .No v ((CProof.codec cF (E.codec c) (E'.codec c')).ser .No cp ++ rest) verify = .ok (verify cp) ∧
      receive cF (E.codec c) (E'.codec c') .No v (bs ++ rest) verify = .ok (verify cp) := by
  have p2 : ∀ P, E.proper P = true → (E.codec c).Returns .No P := fun P h =>
    (SWCurve.returns_uncompressed hc P).mpr (((SWCurve.proper_iff P).mp h).imp_right And.left)
  have p2' : ∀ P, E'.proper P = true → (E'.codec c').Returns .No P := fun P h =>
    (SWCurve.returns_uncompressed hc' P).mpr (((SWCurve.proper_iff P).mp h).imp_right And.left)
  have o := SWCurve.orderly hE hc
  have o' := SWCurve.orderly hE' hc'
  have val : ∀ P, E.proper P = true ∧ E.inSubgroup P = true → (E.codec c).Valid P := by
    rintro P ⟨h, hs⟩
    have : E.onCurve P = true := by
      rcases (SWCurve.proper_iff P).mp h with rfl | ⟨-, h⟩
      · rfl
      · exact h
    show E.check P = .ok ()
    rw [SWCurve.check, this, hs]; rfl
  have val' : ∀ P, E'.proper P = true ∧ E'.inSubgroup P = true → (E'.codec c').Valid P := by
    rintro P ⟨h, hs⟩
    have : E'.onCurve P = true := by
      rcases (SWCurve.proper_iff P).mp h with rfl | ⟨-, h⟩
      · rfl
      · exact h
    show E'.check P = .ok ()
    rw [SWCurve.check, this, hs]; rfl
  have mono : ∀ {pF qF : F → Prop} {q1 r1 : Affine B → Prop} {q2 r2 : Affine B' → Prop}, (∀ a, pF a → qF a) → (∀ a, q1 a → r1 a) →
      (∀ a, q2 a → r2 a) → cp.Elems pF q1 q2 → cp.Elems qF r1 r2 := by
    intro pF qF q1 r1 q2 r2 k k1 k2 h
    exact ⟨⟨fun a ha => ⟨k1 _ (h.1.1 a ha).1, k1 _ (h.1.1 a ha).2⟩, fun l hl a ha => k _ (h.1.2 l hl a ha)⟩,
      ⟨fun a ha => ⟨k2 _ (h.2.1.1 a ha).1, k2 _ (h.2.1.1 a ha).2⟩, fun l hl a ha => k _ (h.2.1.2 l hl a ha)⟩,
      fun pf hpf => ⟨fun a ha => ⟨k2 _ ((h.2.2 pf hpf).1 a ha).1, k2 _ ((h.2.2 pf hpf).1 a ha).2⟩,
        fun a ha => ⟨k1 _ ((h.2.2 pf hpf).2.1 a ha).1, k1 _ ((h.2.2 pf hpf).2.1 a ha).2⟩, fun l hl a ha => k _ ((h.2.2 pf hpf).2.2 l hl a ha)⟩⟩
  have hr : cp.Elems (cF.Returns .No) ((E.codec c).Returns .No) ((E'.codec c').Returns .No) :=
    mono (fun a _ => hF.returns _ a) (fun a h => p2 a h.1) (fun a h => p2' a h.1) hv
  have hV : cp.Elems cF.Valid (E.codec c).Valid (E'.codec c').Valid := mono (fun a h => h) val val' hv
  have nu : ¬ (CProof.codec cF (E.codec c) (E'.codec c')).Unique .No cp := by
    rw [C109_unique_message hF.orderly o o' .No cp hx hr]
    intro hu
    obtain ⟨a, ha⟩ := List.exists_mem_of_ne_nil _ hne
    exact C110_unique_uncompressed hc _ (hr.1.1 a ha).1 (hu.1.1 a ha).1
  simp only [Codec.Unique, not_forall] at nu
  obtain ⟨bs, hb, hne'⟩ := nu
  refine ⟨bs, hne', fun v rest => ⟨?_, ?_⟩⟩
  · exact receive_ok.mpr ⟨cp, rest, C109_round_message hF.orderly o o' .No v cp hx hr (fun _ => hV) rest, rfl⟩
  · obtain ⟨used, e, hin, -⟩ := (C109_message hF.orderly o o' _ _ _ _ _).mp (hb rest)
    exact receive_ok.mpr ⟨cp, rest, (C109_message hF.orderly o o' _ _ _ _ _).mpr ⟨used, e, hin, fun _ => hV⟩, rfl⟩


/-- C110: a receiver that validates gives the answer of C107, where the points are those of the curve and the codec is restricted to them,
if its verifier does. -/
theorem C110_receive (hE : E.Lawful) (hc : c.Lawful) (hE' : E'.Lawful) (hc' : c'.Lawful) {cF : Codec F} (hF : cF.Lawful) (m : Compress)
    (bs : Bytes) (verify : CProof F (Affine B) (Affine B') → Res Bool)
    (verify' : CProof F {P // E.proper P = true} {P // E'.proper P = true} → Res Bool)
    (hv : ∀ cp, verify (cp.on (·.1) (·.1)) = verify' cp) (r : Res Bool) :
    receive cF (E.codec c) (E'.codec c') m .Yes bs verify = .ok r ↔
      receive cF ((E.codec c).only E.proper) ((E'.codec c').only E'.proper) m .Yes bs verify' = .ok r := by
  have o := SWCurve.orderly hE hc
  have o' := SWCurve.orderly hE' hc'
  rw [receive_ok, receive_ok]
  constructor
  · rintro ⟨cp, rest, hd, rfl⟩
    obtain ⟨cp', rfl⟩ := (C110_only_message (p1 := E.proper) (p2 := E'.proper) hF.orderly o o' m .Yes bs rest).2
      (fun m bs P rest => (C110_only hE hc).2.2 m .Yes bs P rest (.inr rfl)) (fun m bs P rest => (C110_only hE' hc').2.2 m .Yes bs P rest (.inr rfl)) cp hd
    exact ⟨cp', rest, ((C110_only_message hF.orderly o o' m .Yes bs rest).1 cp').mpr hd, (hv cp').symm⟩
  · rintro ⟨cp, rest, hd, rfl⟩
    exact ⟨_, rest, ((C110_only_message hF.orderly o o' m .Yes bs rest).1 cp).mp hd, hv cp⟩

namespace Ex

/-- A message of points of the subgroup. -/
def msgPts : CProof K (Affine K) (Affine K) := ⟨⟨[⟨pt3, pt3⟩], [[1, 2]]⟩, ⟨[⟨pt3, pt3⟩], [[3, 4]]⟩, [⟨[⟨pt3, pt3⟩], [⟨pt3, pt3⟩], .Quadratic, [[2]]⟩]⟩

theorem msgPts_fits : msgPts.Fits := by simp [CProof.Fits, Commit.Fits, EquProof.Fits, FitsMat, Fits64, msgPts]

theorem msgPts_valid : msgPts.Elems kCodec.Valid (fun P => curve7.proper P = true ∧ curve7.inSubgroup P = true)
    (fun P => curve7.proper P = true ∧ curve7.inSubgroup P = true) := by
  simp only [CProof.Elems, Commit.Elems, EquProof.Elems, Com.Elems, kCodec_valid, msgPts]; decide

variable (m : Compress) (v : Validate) (bs rest : Bytes)

example := C109_message ko po po m v bs msgPts rest
example := (C110_only_message (p1 := curve7.proper) (p2 := curve7.proper) ko po po m v bs rest).2 po_valid po_valid

theorem msgPts_returns : msgPts.Elems (kCodec.Returns m) (pCodec.Returns m) (pCodec.Returns m) := by
  have r : pCodec.Returns m pt3 := by
    obtain ⟨-, -, h, h'⟩ := C110_points curve7_lawful fp7_lawful
    cases m
    · exact (h pt3).mpr (by decide)
    · exact (h' pt3).mpr (by decide)
  have k := kCodec_returns m
  simp [CProof.Elems, Commit.Elems, EquProof.Elems, Com.Elems, msgPts, r, k]

example := C109_round_message ko po po m .No msgPts msgPts_fits (msgPts_returns m) (by simp) rest
example := C109_unique_message ko po po m msgPts msgPts_fits (msgPts_returns m)

example : (CProof.codec kCodec pCodec pCodec).Unique .Yes msgPts := by
  rw [C110_message_compressed curve7_lawful fp7_lawful curve7_lawful fp7_lawful kCodec_lawful kCodec_canonical msgPts msgPts_fits
    (by simp only [CProof.Elems, Commit.Elems, EquProof.Elems, Com.Elems, msgPts]; decide)]
  simp only [CProof.Elems, Commit.Elems, EquProof.Elems, Com.Elems, msgPts]; decide

example := C110_message_uncompressed curve7_lawful fp7_lawful curve7_lawful fp7_lawful kCodec_lawful msgPts msgPts_fits msgPts_valid
  (by simp [msgPts]) fun _ => .ok true

example (r : Res Bool) := C110_receive curve7_lawful fp7_lawful curve7_lawful fp7_lawful kCodec_lawful m bs
  (fun cp => .ok (decide (cp.xcoms.coms.length = 1))) (fun cp => .ok (decide (cp.xcoms.coms.length = 1))) (fun cp => by simp [CProof.on, Commit.on]) r

end Ex
end GS
