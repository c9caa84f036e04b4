import Verif.Spec.Leak
import Verif.Props.Serialization
import Verif.Props.Commitments

/-!
# C44: a serialized commitment reveals what was committed to

On every CRS with two-element keys, hiding ones included. All ways of making the commitment by single commits, batch
commits and appends are covered (`Hist`).
-/

set_option linter.unusedSectionVars false

namespace GS
variable {F G G1 G2 GT : Type} [Field F] [AddCommGroup G] [Module F G] [AddCommGroup G1] [Module F G1]
  [AddCommGroup G2] [Module F G2] [AddCommGroup GT] [Module F GT] {ρ : Type} [Rng ρ F G1 G2] {key : CRS G1 G2 GT}

theorem OpensGroup.fits {u : List (Com G)} {c : Commit F G} {xs : List G} (h : c.OpensGroup u xs) (hx : Fits64 xs) :
    c.Fits := by
  obtain ⟨u0, u1, u', _, R, h2, h3, h4⟩ := h
  refine ⟨?_, ?_, ?_⟩
  · rw [Fits64, h4]; simpa [h2, Fits64] using hx
  · rw [Fits64, h3]; simpa [h2, Fits64] using hx
  · rw [h3]; intro r hr
    obtain ⟨q, _, rfl⟩ := List.mem_map.mp hr
    simp [Fits64]

theorem OpensScalar.fits {u : List (Com G)} {g : G} {c : Commit F G} {xs : List F} (h : c.OpensScalar u g xs)
    (hx : Fits64 xs) : c.Fits := by
  obtain ⟨u0, u1, u', _, R, h2, h3, h4⟩ := h
  refine ⟨?_, ?_, ?_⟩
  · rw [Fits64, h4]; simpa [h2, Fits64] using hx
  · rw [Fits64, h3]; simpa [h2, Fits64] using hx
  · rw [h3]; intro r hr
    obtain ⟨q, _, rfl⟩ := List.mem_map.mp hr
    simp [Fits64]

theorem eavesdrop_opens {cF : Codec F} {c : Codec G} (hF : cF.Lawful) (h : c.Lawful) (m : Compress) {u : List (Com G)}
    (hu : u.length = 2) {cm : Commit F G} {xs : List G} (ho : cm.OpensGroup u xs) (hx : Fits64 xs) :
    eavesdrop cF c m u ((Commit.codec cF c).ser m cm) = xs := by
  have hd := C41_commit hF h m .No cm (OpensGroup.fits ho hx) (by simp) []
  rw [List.append_nil] at hd
  obtain ⟨u0, u1, u', rfl, R, h2, h3, h4⟩ := ho
  obtain rfl : u' = [] := by simpa using hu
  unfold eavesdrop
  rw [hd]
  simp only
  rw [h3, h4]
  clear h3 h4 hd hx
  induction xs generalizing R with
  | nil => simp
  | cons x xs ih =>
    cases R with
    | nil => simp at h2
    | cons r R =>
      simp only [List.zipWith_cons_cons, List.map_cons]
      rw [ih R (by simpa using h2)]
      congr 1
      show (groupCom u0 u1 x r).c1 - r.1 • u0.c1 - r.2 • u1.c1 = x
      have : (groupCom u0 u1 x r).c1 = x + r.1 • u0.c1 + r.2 • u1.c1 := rfl
      rw [this]
      abel

theorem guess_opens [DecidableEq G] {cF : Codec F} {c : Codec G} (hF : cF.Lawful) (h : c.Lawful) (m : Compress)
    {u : List (Com G)} (hu : u.length = 2) {g : G} {cm : Commit F G} {xs : List F} (ho : cm.OpensScalar u g xs)
    (hx : Fits64 xs) (hg : ∀ u0 u1, u = [u0, u1] → u1 + ⟨0, g⟩ ≠ 0) (ys : List F) :
    guess cF c m u g ((Commit.codec cF c).ser m cm) ys = true ↔ ys = xs := by
  have hd := C41_commit hF h m .No cm (OpensScalar.fits ho hx) (by simp) []
  rw [List.append_nil] at hd
  obtain ⟨u0, u1, u', rfl, R, h2, h3, h4⟩ := ho
  obtain rfl : u' = [] := by simpa using hu
  have hz := hg u0 u1 rfl
  unfold guess
  rw [hd]
  simp only
  rw [h3, h4]
  clear h3 h4 hd hx
  induction xs generalizing R ys with
  | nil => cases ys <;> simp
  | cons x xs ih =>
    cases R with
    | nil => simp at h2
    | cons r R =>
      cases ys with
      | nil => simp
      | cons y ys =>
        have := ih (ys := ys) R (by simpa using h2)
        have key : isComTo u0 (u1 + ⟨0, g⟩) (scalarCom u0 u1 g x r) [r] y = true ↔ y = x := by
          have : scalarCom u0 u1 g x r - r • u0 = x • (u1 + ⟨0, g⟩) := by rw [scalarCom]; abel
          rw [isComTo, decide_eq_true_eq, List.headD_cons, this]
          constructor
          · intro h5
            have h6 : (x - y) • (u1 + (⟨0, g⟩ : Com G)) = 0 := by rw [sub_smul, h5, sub_self]
            rcases smul_eq_zero.mp h6 with h7 | h7
            · exact (sub_eq_zero.mp h7).symm
            · exact absurd h7 hz
          · rintro rfl; rfl
        simp only [List.zipWith_cons_cons, List.map_cons, List.zip_cons_cons, List.length_cons, List.all_cons,
          Bool.and_eq_true, beq_iff_eq, id_eq, List.cons.injEq, add_left_inj, key] at this ⊢
        tauto

/-- C44: the committed `G1` elements are computed from the key and the bytes. -/
theorem C44_reveal_G1 {cF : Codec F} {c1 : Codec G1} (hF : cF.Lawful) (h1 : c1.Lawful) (m : Compress)
    (hu : key.u.length = 2) (h : Hist G1) (hh : h.NoEmptyBatch) (hl : Fits64 h.values) (rng : ρ) :
    ∃ c rng', histG1 key F h rng = .ok (c, rng') ∧
      eavesdrop cF c1 m key.u ((Commit.codec cF c1).ser m c) = h.values := by
  obtain ⟨c, r, h2, h3⟩ := C20_history_G1 (F := F) hu h hh rng
  exact ⟨c, r, h2, eavesdrop_opens hF h1 m hu h3 hl⟩

/-- C44: the committed `G2` elements are computed from the key and the bytes. -/
theorem C44_reveal_G2 {cF : Codec F} {c2 : Codec G2} (hF : cF.Lawful) (h2 : c2.Lawful) (m : Compress)
    (hv : key.v.length = 2) (h : Hist G2) (hh : h.NoEmptyBatch) (hl : Fits64 h.values) (rng : ρ) :
    ∃ c rng', histG2 key F h rng = .ok (c, rng') ∧
      eavesdrop cF c2 m key.v ((Commit.codec cF c2).ser m c) = h.values := by
  obtain ⟨c, r, h3, h4⟩ := C20_history_G2 (F := F) hv h hh rng
  exact ⟨c, r, h3, eavesdrop_opens hF h2 m hv h4 hl⟩

/-- C44: every guess for the scalars committed to on the `G1` side is decided from the key and the bytes. -/
theorem C44_reveal_B1 [DecidableEq G1] {cF : Codec F} {c1 : Codec G1} (hF : cF.Lawful) (h1 : c1.Lawful) (m : Compress)
    {u0 u1 : Com G1} (hu : key.u = [u0, u1]) (hz : u1 + ⟨0, key.g1_gen⟩ ≠ 0) (h : Hist F) (hh : h.NoEmptyBatch)
    (hl : Fits64 h.values) (rng : ρ) :
    ∃ c rng', histB1 key h rng = .ok (c, rng') ∧
      ∀ ys, guess cF c1 m key.u key.g1_gen ((Commit.codec cF c1).ser m c) ys = true ↔ ys = h.values := by
  obtain ⟨c, r, h2, h3⟩ := C20_history_B1 (key := key) (by simp [hu]) h hh rng
  exact ⟨c, r, h2, guess_opens hF h1 m (by simp [hu]) h3 hl (by rw [hu]; intro a b hab; cases hab; exact hz)⟩

/-- C44: every guess for the scalars committed to on the `G2` side is decided from the key and the bytes. -/
theorem C44_reveal_B2 [DecidableEq G2] {cF : Codec F} {c2 : Codec G2} (hF : cF.Lawful) (h2 : c2.Lawful) (m : Compress)
    {v0 v1 : Com G2} (hv : key.v = [v0, v1]) (hz : v1 + ⟨0, key.g2_gen⟩ ≠ 0) (h : Hist F) (hh : h.NoEmptyBatch)
    (hl : Fits64 h.values) (rng : ρ) :
    ∃ c rng', histB2 key h rng = .ok (c, rng') ∧
      ∀ ys, guess cF c2 m key.v key.g2_gen ((Commit.codec cF c2).ser m c) ys = true ↔ ys = h.values := by
  obtain ⟨c, r, h3, h4⟩ := C20_history_B2 (key := key) (by simp [hv]) h hh rng
  exact ⟨c, r, h3, guess_opens hF h2 m (by simp [hv]) h4 hl (by rw [hv]; intro a b hab; cases hab; exact hz)⟩

/-- A hiding CRS does not help. -/
example : ∃ c rng', histG1 Ex.sim7 Ex.K (.append (.single 4) (.batch [2, 5])) (3 : Nat) = .ok (c, rng') ∧
    eavesdrop Ex.kCodec Ex.kCodec .Yes Ex.sim7.u ((Commit.codec Ex.kCodec Ex.kCodec).ser .Yes c) = [4, 2, 5] :=
  C44_reveal_G1 Ex.kCodec_lawful Ex.kCodec_lawful .Yes rfl (.append (.single 4) (.batch [2, 5])) (by simp [Hist.NoEmptyBatch])
    (by simp [Fits64, Hist.values]) _

example (ys : List Ex.K) : ∃ c rng', histB2 Ex.sim7 (.append (.single 4) (.batch [2, 5])) (3 : Nat) = .ok (c, rng') ∧
    (guess Ex.kCodec Ex.kCodec .No Ex.sim7.v Ex.sim7.g2_gen ((Commit.codec Ex.kCodec Ex.kCodec).ser .No c) ys = true ↔
      ys = [4, 2, 5]) := by
  obtain ⟨c, r, h1, h2⟩ := C44_reveal_B2 (key := Ex.sim7) Ex.kCodec_lawful Ex.kCodec_lawful .No rfl (by decide)
    (.append (.single 4) (.batch [2, 5])) (by simp [Hist.NoEmptyBatch]) (by simp [Fits64, Hist.values]) (3 : Nat)
  exact ⟨c, r, h1, h2 ys⟩

/-! ### Instances -/

namespace Ex

example := C44_reveal_G2 (key := sim7) kCodec_lawful kCodec_lawful .Yes rfl (.append (.single 4) (.batch [2, 5]))
  (by simp [Hist.NoEmptyBatch]) (by simp [Fits64, Hist.values]) (3 : Nat)
example := C44_reveal_B1 (key := sim7) kCodec_lawful kCodec_lawful .No rfl (by decide) (.append (.single 4) (.batch [2, 5]))
  (by simp [Hist.NoEmptyBatch]) (by simp [Fits64, Hist.values]) (3 : Nat)

end Ex

end GS
