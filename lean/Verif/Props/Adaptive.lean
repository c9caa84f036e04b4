import Verif.Lemmas.Adaptive
import Verif.Lemmas.Games
import Verif.Props.Session

/-!
# C104: an adversary that drives a whole program learns nothing about its secrets
-/

namespace GS
variable {F G1 G2 GT : Type} [Field F] [AddCommGroup G1] [Module F G1] [AddCommGroup G2] [Module F G2]
  [AddCommGroup GT] [Module F GT] [DecidableEq GT] {e : G1 →ₗ[F] G2 →ₗ[F] GT}

/-- C104: on a simulated CRS the output of every adversary is the same in both worlds. -/
theorem C104_perfect [Fintype F] (he : PrimeGroups e) {crs : CRS G1 G2 GT} (hs : SimulatedCrs e crs) (hg : crs.NonzeroGens)
    {cd : Codecs F G1 G2} (hcd : cd.Lawful) (σ : Strategy F G1 G2 GT) : leftRight e crs cd false σ = leftRight e crs cd true σ := by
  obtain ⟨u0, u1, v0, v1, a1, t1, a2, t2, hu, hv, ku, kv⟩ := SimulatedCrs.keys he hs hg
  exact Adaptive.play_eq he hu hv ku kv hcd σ Adaptive.Rel.init

/-- C104: on the CRS of `generate_crs`, which the adversary sees, telling the worlds apart breaks DDH in one of the groups. -/
theorem C104_indistinguishable [Fintype F] [Fintype G1] [Fintype G2] (he : PrimeGroups e) {cd : Codecs F G1 G2}
    (hcd : cd.Lawful) (σ : CRS G1 G2 GT → Strategy F G1 G2 GT) (hσ : ∀ crs, (σ crs).Bounded) :
    let D1 := fun crs => leftRight e crs cd false (σ crs)
    let D2 := fun crs => leftRight e crs cd true (σ crs)
    |bindingGame e D1 - bindingGame e D2| ≤
      sxdhAdv e D1 + sxdhAdv e D2 + (1 / Fintype.card G1 + 1 / Fintype.card G2) := by
  intro D1 D2
  have h1 := crs_hybrid (e := e) D1
  have h2 := crs_hybrid (e := e) D2
  have h3 := trapdoorGame_close (e := e) (fun crs _ _ => D1 crs) (fun crs _ _ => D2 crs) (by
      intro p1 p2 a1 a2 t1 t2 z1 z2
      exact C104_perfect he ⟨p1, p2, a1, a2, t1, t2, rfl⟩ ⟨z1, z2⟩ hcd _) (by
      intro crs _ _
      have k1 : 0 ≤ D1 crs ∧ D1 crs ≤ 1 := Adaptive.play_mem crs cd _ (hσ crs) ..
      have k2 : 0 ≤ D2 crs ∧ D2 crs ≤ 1 := Adaptive.play_mem crs cd _ (hσ crs) ..
      rw [abs_le]
      constructor <;> linarith)
  rw [abs_le] at *
  simp only [hidingGame] at h1 h2
  constructor <;> linarith

/-- C104: the assumption is needed. On a generated CRS there is an adversary (it need not be efficient) that tells the worlds apart with
certainty. -/
theorem C104_assumption_needed [Fintype F] (he : PrimeGroups e) {crs : CRS G1 G2 GT} (hc : GeneratedCrs e crs) (hg : crs.NonzeroGens)
    (cd : Codecs F G1 G2) :
    ∃ σ : Strategy F G1 G2 GT, σ.Bounded ∧ leftRight e crs cd false σ = 0 ∧ leftRight e crs cd true σ = 1 := by
  classical
  obtain ⟨X, x, Y, y, hX, -⟩ := C12_joint_soundness e he crs hc hg
  have ho := (C78_open_iff e he crs hc hg).1
  refine ⟨.call (.commitL 0 (.group 0)) (.commitL 0 (.group crs.g1_gen)) fun _ P =>
    .stop (if (P.left 0).map X = [0] then 0 else 1), ?_, ?_, ?_⟩
  · intro o P
    simp only [Strategy.Bounded]
    split <;> simp
  · simp only [leftRight, play]
    rw [if_pos ⟨⟨rfl, trivial⟩, trivial, trivial⟩]
    refine (Finset.expect_congr rfl fun t _ => ?_).trans (Fintype.expect_const (0 : ℝ))
    obtain ⟨c, s', h1, h2⟩ := Val.commitL_ok hc.length_u (.group (0 : G1) : Val F G1) (List.ofFn t)
    have h3 := allOpen_read hX ho h2
    simp only [Store.step, Bool.false_eq_true, if_false, h1, Store.pub, setAt, if_true]
    rw [if_pos]
    rw [← h3]; rfl
  · simp only [leftRight, play]
    rw [if_pos ⟨⟨rfl, trivial⟩, trivial, trivial⟩]
    refine (Finset.expect_congr rfl fun t _ => ?_).trans (Fintype.expect_const (1 : ℝ))
    obtain ⟨c, s', h1, h2⟩ := Val.commitL_ok hc.length_u (.group crs.g1_gen : Val F G1) (List.ofFn t)
    have h3 := allOpen_read hX ho h2
    simp only [Store.step, if_true, h1, Store.pub, setAt]
    rw [if_neg]
    rw [← h3]
    simpa [Val.asGroup] using hg.1

/-- C104: the tape that the game gives to a call is as long as it has to be. With a longer one nothing changes, and a call that completes
leaves exactly the rest of it. -/
theorem C104_tape (crs : CRS G1 G2 GT) (hu : crs.u.length = 2) (hv : crs.v.length = 2) (cd : Codecs F G1 G2)
    (s : Store (List F) F G1 G2) (op : ApiCall F G1 G2 GT) (t : Fin op.draws → F) (rest : List F) :
    let r := ({ s with rng := List.ofFn t } : Store (List F) F G1 G2).step e crs cd op
    let r' := ({ s with rng := List.ofFn t ++ rest } : Store (List F) F G1 G2).step e crs cd op
    r.1 = r'.1 ∧ r.2.left = r'.2.left ∧ r.2.right = r'.2.right ∧ r.2.proofs = r'.2.proofs ∧
      (r'.1 = .done → r.2.rng = [] ∧ r'.2.rng = rest) := by
  intro r r'
  cases op with
  | commitL i v =>
    have h := Adaptive.uses_batchL hu (Adaptive.single v) (by rw [Adaptive.single_vals]; simp)
    rw [← Adaptive.commitL_single hu, show (Adaptive.single v).draws = (ApiCall.commitL i v : ApiCall F G1 G2 GT).draws by cases v <;> rfl] at h
    obtain ⟨c, h1, h2⟩ := Adaptive.uses_run h t rest
    simp only [r, r', Store.step, h1, h2]
    simp
  | commitR i v =>
    have h := Adaptive.uses_batchR hv (Adaptive.single v) (by rw [Adaptive.single_vals]; simp)
    rw [← Adaptive.commitR_single hv, show (Adaptive.single v).draws = (ApiCall.commitR i v : ApiCall F G1 G2 GT).draws by cases v <;> rfl] at h
    obtain ⟨c, h1, h2⟩ := Adaptive.uses_run h t rest
    simp only [r, r', Store.step, h1, h2]
    simp
  | batchL i b =>
    by_cases hb : b.vals = []
    · obtain ⟨p, q, h1⟩ := (b.commitL_ok hu (List.ofFn t)).2 hb
      obtain ⟨p', q', h1'⟩ := (b.commitL_ok hu (List.ofFn t ++ rest)).2 hb
      simp only [r, r', Store.step, h1, h1']
      simp
    · obtain ⟨c, h1, h2⟩ := Adaptive.uses_run (N := (ApiCall.batchL i b : ApiCall F G1 G2 GT).draws) (Adaptive.uses_batchL hu b hb) t rest
      simp only [r, r', Store.step, h1, h2]
      simp
  | batchR i b =>
    by_cases hb : b.vals = []
    · obtain ⟨p, q, h1⟩ := (b.commitR_ok hv (List.ofFn t)).2 hb
      obtain ⟨p', q', h1'⟩ := (b.commitR_ok hv (List.ofFn t ++ rest)).2 hb
      simp only [r, r', Store.step, h1, h1']
      simp
    · obtain ⟨c, h1, h2⟩ := Adaptive.uses_run (N := (ApiCall.batchR i b : ApiCall F G1 G2 GT).draws) (Adaptive.uses_batchR hv b hb) t rest
      simp only [r, r', Store.step, h1, h2]
      simp
  | prove k i j c sch =>
    rcases Adaptive.uses_prove (crs := crs) c sch (s.left i) (s.right j) with h | h
    · obtain ⟨c, h1, h2⟩ := Adaptive.uses_run (N := (ApiCall.prove k i j c sch : ApiCall F G1 G2 GT).draws) h t rest
      simp only [r, r', Store.step, h1, h2]
      simp
    · obtain ⟨p, q, h1⟩ := Unw.run_of_panics (h (List.ofFn t))
      obtain ⟨p', q', h1'⟩ := Unw.run_of_panics (h (List.ofFn t ++ rest))
      simp only [r, r', Store.step, h1, h1']
      simp
  | commitAndProve k i j c sch =>
    by_cases hw : c.WellFormed
    · obtain ⟨c, h1, h2⟩ := Adaptive.uses_run (N := (ApiCall.commitAndProve k i j c sch : ApiCall F G1 G2 GT).draws)
        (Adaptive.uses_cap hu hv c sch hw) t rest
      simp only [r, r', Store.step, h1, h2]
      simp
    · obtain ⟨p, q, h1⟩ := Adaptive.cap_panics (crs := crs) c sch (List.ofFn t) hw
      obtain ⟨p', q', h1'⟩ := Adaptive.cap_panics (crs := crs) c sch (List.ofFn t ++ rest) hw
      simp only [r, r', Store.step, h1, h1']
      simp
  | appendL i j =>
    have ht : List.ofFn t = [] := List.ofFn_zero
    simp only [r, r', Store.step, ht, List.nil_append]
    split
    · simp
    · split <;> simp
  | appendR i j =>
    have ht : List.ofFn t = [] := List.ofFn_zero
    simp only [r, r', Store.step, ht, List.nil_append]
    split
    · simp
    · split <;> simp
  | cloneL i j =>
    have ht : List.ofFn t = [] := List.ofFn_zero
    simp [r, r', Store.step, ht]
  | cloneR i j =>
    have ht : List.ofFn t = [] := List.ofFn_zero
    simp [r, r', Store.step, ht]
  | reloadL i m v =>
    have ht : List.ofFn t = [] := List.ofFn_zero
    simp only [r, r', Store.step, ht, List.nil_append]
    split <;> simp
  | reloadR i m v =>
    have ht : List.ofFn t = [] := List.ofFn_zero
    simp only [r, r', Store.step, ht, List.nil_append]
    split <;> simp
  | reloadP i m v =>
    have ht : List.ofFn t = [] := List.ofFn_zero
    simp only [r, r', Store.step, ht, List.nil_append]
    split <;> simp
  | receive k pfs =>
    have ht : List.ofFn t = [] := List.ofFn_zero
    simp [r, r', Store.step, ht]
  | verify k i j q sch =>
    simp only [r, r', Store.step]
    split <;> simp

/-! ### An example -/

namespace Ex

/-- Commit to a secret and prove an equation about it, write and read back the commitments and the proof, prove another equation about the same commitments, open the second of the right
commitments (it is the same in both worlds), commit to another pair of values, misuse the batch function, verify. -/
noncomputable def strategy7 (sch : Nat → Scheduler) (sch' : Scheduler) : Strategy K K K K :=
  .call (.commitAndProve 0 0 0 (.ppe ppe7 [2] [3, 4]) sch) (.commitAndProve 0 0 0 (.ppe ppe7 [0] [5, 5]) sch) fun _ _ =>
  .call (.reloadL 0 .Yes .Yes) (.reloadL 0 .Yes .Yes) fun _ _ =>
  .call (.reloadP 0 .No .Yes) (.reloadP 0 .No .Yes) fun _ _ =>
  .call (.prove 1 0 0 (.ppe ppe7 [2] [3, 4]) sch) (.prove 1 0 0 (.ppe ppe7 [0] [5, 5]) sch) fun _ _ =>
  .call (.commitL 3 (.scalar 3)) (.commitL 3 (.scalar 6)) fun _ _ =>
  .call (.commitR 2 (.group 3)) (.commitR 2 (.group 3)) fun _ _ =>
  .openR 2 0 fun _ =>
  .call (.appendR 0 2) (.appendR 0 2) fun _ _ =>
  .openR 0 2 fun _ =>
  .call (.batchL 0 (.group [])) (.batchL 0 (.group [])) fun _ _ =>
  .call (.verify 0 0 0 (.ppe ppe7) sch') (.verify 0 0 0 (.ppe ppe7) sch') fun _ _ =>
  .stop 1

theorem ppe7_holds_other : ppe7.Holds e7 [0] [5, 5] := by unfold PPE.Holds; decide

theorem play_call {crs : CRS K K K} {cd : Codecs K K K} {b : Bool} {op op' : ApiCall K K K K} {next : ApiOutcome → Public K K → Strategy K K K K}
    {L L' : Ledger K K K K} {s : Store (List K) K K K} (ha : Admissible e7 L L' op op')
    (h : ∀ o P s, play e7 crs cd b (next o P) (L.step op) (L'.step op') s = 1) : play e7 crs cd b (.call op op' next) L L' s = 1 := by
  rw [play, if_pos ha]
  exact (Finset.expect_congr rfl fun t _ => h ..).trans (Fintype.expect_const (1 : ℝ))

theorem play_openR {crs : CRS K K K} {cd : Codecs K K K} {b : Bool} {i k : Nat} {next : Option (List K) → Strategy K K K K}
    {L L' : Ledger K K K K} {s : Store (List K) K K K} (ha : ((L.right i)[k]?).map (·.val) = ((L'.right i)[k]?).map (·.val))
    (h : ∀ o s, play e7 crs cd b (next o) L L' s = 1) : play e7 crs cd b (.openR i k next) L L' s = 1 := by
  rw [play, if_pos ha]
  exact h ..

/-- All moves of `strategy7` are admissible, in both worlds and on every CRS. -/
theorem strategy7_plays (crs : CRS K K K) (cd : Codecs K K K) (b : Bool) (sch : Nat → Scheduler) (sch' : Scheduler) :
    leftRight e7 crs cd b (strategy7 sch sch') = 1 := by
  have w1 : (Claim.ppe ppe7 [2] [3, 4] : Claim K K K K).WellFormed := ⟨by simp [Claim.xs, Batch.vals], by simp [Claim.ys, Batch.vals], ppe7_dims⟩
  have w2 : (Claim.ppe ppe7 [0] [5, 5] : Claim K K K K).WellFormed := ⟨by simp [Claim.xs, Batch.vals], by simp [Claim.ys, Batch.vals], ppe7_dims⟩
  refine play_call ⟨?_, fun _ => ppe7_holds, fun _ => ppe7_holds_other⟩ fun _ _ _ => ?_
  · exact ⟨rfl, rfl, rfl, rfl, rfl, rfl⟩
  refine play_call ⟨⟨rfl, rfl, rfl⟩, ?_, ?_⟩ fun _ _ _ => ?_
  · simp [Ledger.HonestCall, Ledger.step, w1, Fits64, Claim.xs, Batch.vals, numbered, setAt]
  · simp [Ledger.HonestCall, Ledger.step, w2, Fits64, Claim.xs, Batch.vals, numbered, setAt]
  refine play_call ⟨⟨rfl, rfl, rfl⟩, ?_, ?_⟩ fun _ _ _ => ?_
  · simp [Ledger.HonestCall, Ledger.step, w1, setAt]
  · simp [Ledger.HonestCall, Ledger.step, w2, setAt]
  refine play_call ⟨?_, fun _ => ⟨?_, ?_, ppe7_holds⟩, fun _ => ⟨?_, ?_, ppe7_holds_other⟩⟩ fun _ _ _ => ?_
  · exact ⟨rfl, rfl, rfl, rfl, rfl, rfl⟩
  · simp [Ledger.step, w1]; rfl
  · simp [Ledger.step, w1]; rfl
  · simp [Ledger.step, w2]; rfl
  · simp [Ledger.step, w2]; rfl
  refine play_call ⟨⟨rfl, trivial⟩, trivial, trivial⟩ fun _ _ _ => ?_
  refine play_call ⟨⟨rfl, trivial⟩, trivial, trivial⟩ fun _ _ _ => ?_
  refine play_openR ?_ fun _ _ => ?_
  · simp [Ledger.step, numbered, setAt]
  refine play_call ⟨by simp [ApiCall.Twins], trivial, trivial⟩ fun _ _ _ => ?_
  refine play_openR ?_ fun _ _ => ?_
  · have hp (L : Ledger K K K K) (c : Claim K K K K) (k i j : Nat) : (L.step (.prove k i j c sch)).right = L.right := by
      by_cases h : c.Fits (L.left i) (L.right j) <;> simp [Ledger.step, h]
    simp only [Ledger.step.eq_2, Ledger.step.eq_1, Ledger.step.eq_6, setAt, hp]
    simp [Ledger.step, numbered, setAt, w1, w2, Claim.ys, Batch.vals]
  refine play_call ⟨⟨rfl, rfl⟩, trivial, trivial⟩ fun _ _ _ => ?_
  refine play_call ⟨by simp [ApiCall.Twins], trivial, trivial⟩ fun _ _ _ => ?_
  rw [play]

example (D : Public K K → ℝ) (sch : Nat → Scheduler) :
    let σ : Strategy K K K K := .call (.commitAndProve 0 0 0 (.ppe ppe7 [2] [3, 4]) sch) (.commitAndProve 0 0 0 (.ppe ppe7 [0] [5, 5]) sch)
      fun _ P => .stop (D P)
    leftRight e7 sim7 codecs7 false σ = leftRight e7 sim7 codecs7 true σ :=
  C104_perfect prime7 sim7_simulated sim7_nonzero codecs7_lawful _

example : ∃ σ : Strategy K K K K, σ.Bounded ∧ leftRight e7 crs7 codecs7 false σ = 0 ∧ leftRight e7 crs7 codecs7 true σ = 1 :=
  C104_assumption_needed prime7 crs7_generated crs7_nonzero codecs7

example (sch : Nat → Scheduler) :=
  C104_indistinguishable prime7 codecs7_lawful
    (fun _ => .call (.commitAndProve 0 0 0 (.ppe ppe7 [2] [3, 4]) sch) (.commitAndProve 0 0 0 (.ppe ppe7 [0] [5, 5]) sch) fun o _ => .stop (if o = .done then 1 else 0))
    (fun _ _ _ => by simp only [Strategy.Bounded]; split <;> norm_num)

end Ex

/-! ### Instances -/

namespace Ex

example (s : Store (List K) K K K) (sch : Nat → Scheduler) (t : Fin 10 → K) (rest : List K) :=
  C104_tape (e := e7) crs7 rfl rfl codecs7 s (.commitAndProve 0 0 0 (.ppe ppe7 [2] [3, 4]) sch) t rest

end Ex

end GS
