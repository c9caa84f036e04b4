import Verif.Spec.Message
import Verif.Lemmas.Serialize
import Verif.Props.Serialization

/-! # Lemmas about messages -/

namespace GS
variable {F G H G1 G2 GT H1 H2 : Type}

theorem msg_good {cF : Codec F} {c1 : Codec G1} {c2 : Codec G2} [Field F] (hF : cF.Lawful) (h1 : c1.Lawful) (h2 : c2.Lawful) :
    (CProof.codec cF c1 c2).Good CProof.Fits (CProof.Elems cF.Valid c1.Valid c2.Valid) :=
  struct_good (fun _ => rfl) (fun _ => rfl) (prod_good (commit_good hF h1) (prod_good (commit_good hF h2) (vec_good (proof_good hF h1 h2))))
    (by simp [CProof.Fits]) (by simp [CProof.Elems])

theorem msg_canonical {cF : Codec F} {c1 : Codec G1} {c2 : Codec G2} (hF : cF.Canonical) (h1 : c1.Canonical) (h2 : c2.Canonical) :
    (CProof.codec cF c1 c2).Canonical :=
  struct_canonical (fun _ => rfl) (fun _ => rfl)
    (prod_canonical (commit_canonical hF h1) (prod_canonical (commit_canonical hF h2) (vec_canonical (proof_canonical hF h1 h2))))

theorem receive_ok {cF : Codec F} {c1 : Codec G1} {c2 : Codec G2} {m v bs} {vf : CProof F G1 G2 → Res Bool} {r : Res Bool} :
    receive cF c1 c2 m v bs vf = .ok r ↔ ∃ cp rest, (CProof.codec cF c1 c2).de m v bs = .ok (cp, rest) ∧ vf cp = r := by
  simp only [receive, ser_bind_ok, ser_pure, Prod.exists, Except.ok.injEq]

theorem receive_err {cF : Codec F} {c1 : Codec G1} {c2 : Codec G2} {m v bs} {vf : CProof F G1 G2 → Res Bool} {err : SerErr}
    (h : (CProof.codec cF c1 c2).de m v bs = .error err) : receive cF c1 c2 m v bs vf = .error err := by
  simp only [receive, h]; rfl

variable {f1 : G1 → H1} {f2 : G2 → H2} {j1 : H1 → G1} {j2 : H2 → G2}

theorem Com.on_on {f : G → H} {j : H → G} (hj : ∀ x, f (j x) = x) : Com.on f ∘ Com.on j = id := by
  funext c; simp [Com.on, hj]

theorem Com.on_back {f : G → H} {j : H → G} (hj : ∀ x, f (j x) = x) {c : Com G} (hc : c.Elems fun g => ∃ x, j x = g) :
    (c.on f).on j = c := by
  obtain ⟨⟨x, hx⟩, y, hy⟩ := hc
  obtain ⟨a, b⟩ := c
  subst hx hy
  simp [Com.on, hj]

theorem map_back {α β : Type} {f : α → β} {j : β → α} {l : List α} (h : ∀ a ∈ l, j (f a) = a) : (l.map f).map j = l := by
  rw [List.map_map]
  conv_rhs => rw [← List.map_id l]
  exact List.map_congr_left h

theorem CProof.on_on (h1 : ∀ x, f1 (j1 x) = x) (h2 : ∀ x, f2 (j2 x) = x) (cp : CProof F H1 H2) : (cp.on j1 j2).on f1 f2 = cp := by
  obtain ⟨⟨xc, xr⟩, ⟨yc, yr⟩, pfs⟩ := cp
  have : EquProof.on f1 f2 ∘ EquProof.on j1 j2 = (id : EquProof F H1 H2 → _) := by
    funext pf
    obtain ⟨p, t, ty, r⟩ := pf
    simp only [Function.comp, EquProof.on, List.map_map, Com.on_on h1, Com.on_on h2, List.map_id, id]
  simp only [CProof.on, Commit.on, List.map_map, Com.on_on h1, Com.on_on h2, List.map_id, this]

theorem CRS.on_on (h1 : ∀ x, f1 (j1 x) = x) (h2 : ∀ x, f2 (j2 x) = x) (crs : CRS H1 H2 GT) : (crs.on j1 j2).on f1 f2 = crs := by
  simp only [CRS.on, List.map_map, Com.on_on h1, Com.on_on h2, List.map_id, h1, h2]

theorem PPE.on_on (h1 : ∀ x, f1 (j1 x) = x) (h2 : ∀ x, f2 (j2 x) = x) (equ : PPE F H1 H2 GT) : (equ.on j1 j2).on f1 f2 = equ := by
  have c1 : f1 ∘ j1 = id := funext h1
  have c2 : f2 ∘ j2 = id := funext h2
  simp only [PPE.on, List.map_map, c1, c2, List.map_id]

theorem MSMEG1.on_on (h1 : ∀ x, f1 (j1 x) = x) (equ : MSMEG1 F H1) : (equ.on j1).on f1 = equ := by
  have c1 : f1 ∘ j1 = id := funext h1
  simp only [MSMEG1.on, List.map_map, c1, List.map_id, h1]

theorem MSMEG2.on_on (h2 : ∀ x, f2 (j2 x) = x) (equ : MSMEG2 F H2) : (equ.on j2).on f2 = equ := by
  have c2 : f2 ∘ j2 = id := funext h2
  simp only [MSMEG2.on, List.map_map, c2, List.map_id, h2]

theorem CProof.on_back [Field F] (h1 : ∀ x, f1 (j1 x) = x) (h2 : ∀ x, f2 (j2 x) = x) {pF : F → Prop} {cp : CProof F G1 G2}
    (hc : cp.Elems pF (fun g => ∃ x, j1 x = g) (fun g => ∃ x, j2 x = g)) : (cp.on f1 f2).on j1 j2 = cp := by
  obtain ⟨⟨xc, xr⟩, ⟨yc, yr⟩, pfs⟩ := cp
  obtain ⟨⟨hx, -⟩, ⟨hy, -⟩, hp⟩ := hc
  simp only [CProof.on, Commit.on]
  rw [map_back fun c hc => Com.on_back h1 (hx c hc), map_back fun c hc => Com.on_back h2 (hy c hc), map_back]
  intro pf hpf
  obtain ⟨p, t, ty, r⟩ := pf
  obtain ⟨h3, h4, -⟩ := hp _ hpf
  simp only [EquProof.on]
  rw [map_back fun c hc => Com.on_back h2 (h3 c hc), map_back fun c hc => Com.on_back h1 (h4 c hc)]

theorem CProof.elems_on [Field F] {pF : F → Prop} (hF : ∀ a, pF a) (cp : CProof F H1 H2) :
    (cp.on j1 j2).Elems pF (fun g => ∃ x, j1 x = g) (fun g => ∃ x, j2 x = g) := by
  simp [CProof.Elems, CProof.on, Commit.Elems, Commit.on, EquProof.Elems, EquProof.on, Com.Elems, Com.on, hF]

theorem CProof.fits_on [Field F] {cp : CProof F H1 H2} : (cp.on j1 j2).Fits ↔ cp.Fits := by
  simp [CProof.Fits, CProof.on, Commit.Fits, Commit.on, EquProof.Fits, EquProof.on, Fits64]

end GS
