import Verif.Lemmas.Session
import Verif.Props.Example

/-!
# C100: any program using the API behaves like a ledger of committed values
-/

namespace GS
variable {F G1 G2 GT ρ : Type} [Field F] [AddCommGroup G1] [Module F G1] [AddCommGroup G2] [Module F G2]
  [AddCommGroup GT] [Module F GT] [DecidableEq GT] [Rng ρ F G1 G2]

section
variable (e : G1 →ₗ[F] G2 →ₗ[F] GT) (he : PrimeGroups e) (crs : CRS G1 G2 GT) (hc : GeneratedCrs e crs) (h0 : crs.NonzeroGens)
  (cd : Codecs F G1 G2) (hcd : cd.Lawful) (rng : ρ)
include he hc h0 hcd

/-- C100: whatever calls a program makes, every outcome is one that the ledger allows. -/
theorem C100_ledger (ops : List (ApiCall F G1 G2 GT)) :
    (Ledger.init : Ledger F G1 G2 GT).Conforms e crs ops ((Store.init rng).run e crs cd ops) :=
  (Good.init rng).run he hc h0 hcd ops

theorem session_last (ops : List (ApiCall F G1 G2 GT)) (op : ApiCall F G1 G2 GT) {T1 : Nat → Com G1 × List F} {T2 : Nat → Com G2 × List F}
    {L : Ledger F G1 G2 GT} {s : Store ρ F G1 G2} (h : Good e crs T1 T2 L s) (hm : L.StaysInMemory ops) :
    ∃ os o, s.run e crs cd (ops ++ [op]) = os ++ [o] ∧ os.length = ops.length ∧ (L.after ops).Allows e crs op o := by
  induction ops generalizing L s T1 T2 with
  | nil =>
    exact ⟨[], _, rfl, rfl, (h.step he hc h0 hcd (hm 0) op).1⟩
  | cons p ops ih =>
    obtain ⟨-, T1', T2', h2⟩ := h.step he hc h0 hcd (hm 0) p
    obtain ⟨os, o, h3, h4, h5⟩ := ih h2 fun k => hm (k + 1)
    exact ⟨(s.step e crs cd p).1 :: os, o, by rw [List.cons_append, Store.run, h3]; rfl, by simp [h4], h5⟩

/-- C100: the last call of a program, judged by what the ledger has recorded until then. -/
theorem C100_last (ops : List (ApiCall F G1 G2 GT)) (hm : (Ledger.init : Ledger F G1 G2 GT).StaysInMemory ops) (op : ApiCall F G1 G2 GT) :
    ∃ os o, (Store.init rng : Store ρ F G1 G2).run e crs cd (ops ++ [op]) = os ++ [o] ∧ os.length = ops.length ∧
      ((Ledger.init : Ledger F G1 G2 GT).after ops).Allows e crs op o :=
  session_last e he crs hc h0 cd hcd ops op (Good.init rng) hm

/-- C100: a program that sees `verify` return `true`, after any calls and for a proof from anywhere, has committed to values that
satisfy the equation. -/
theorem C100_sound (ops : List (ApiCall F G1 G2 GT)) (hm : (Ledger.init : Ledger F G1 G2 GT).StaysInMemory ops) (k i j : Nat)
    (q : AnyEqu F G1 G2 GT) (sch : Scheduler)
    (hv : ((Store.init rng : Store ρ F G1 G2).run e crs cd (ops ++ [.verify k i j q sch])).getLast? = some (.verdict true)) :
    q.SatBy e crs ((((Ledger.init : Ledger F G1 G2 GT).after ops).left i).map (·.val))
      ((((Ledger.init : Ledger F G1 G2 GT).after ops).right j).map (·.val)) := by
  obtain ⟨os, o, h1, -, h2⟩ := C100_last e he crs hc h0 cd hcd rng ops hm (.verify k i j q sch)
  rw [h1, List.getLast?_append] at hv
  simp only [List.getLast?_singleton, Option.some_or, Option.some.injEq] at hv
  subst hv
  by_cases hd : Ledger.Decides ((Ledger.init : Ledger F G1 G2 GT).after ops) k i j q
  · obtain ⟨b, hb, hs, -⟩ := h2.2 hd
    cases hb
    exact hs rfl
  · have := h2.1 hd
    cases this

/-- C100: a proof made for an equation from the values in two variables is accepted whenever these two variables (or others)
hold the same commitments, if and only if the values satisfy the equation, whatever happened in between. -/
theorem C100_complete (ops : List (ApiCall F G1 G2 GT)) (hm : (Ledger.init : Ledger F G1 G2 GT).StaysInMemory ops) (k i j : Nat)
    (q : AnyEqu F G1 G2 GT) (sch : Scheduler) (hd : Ledger.Decides ((Ledger.init : Ledger F G1 G2 GT).after ops) k i j q)
    (hh : Ledger.Honest ((Ledger.init : Ledger F G1 G2 GT).after ops) k i j q) :
    ∃ b, ((Store.init rng : Store ρ F G1 G2).run e crs cd (ops ++ [.verify k i j q sch])).getLast? = some (.verdict b) ∧
      (b = true ↔ q.SatBy e crs ((((Ledger.init : Ledger F G1 G2 GT).after ops).left i).map (·.val))
        ((((Ledger.init : Ledger F G1 G2 GT).after ops).right j).map (·.val))) := by
  obtain ⟨os, o, h1, -, h2⟩ := C100_last e he crs hc h0 cd hcd rng ops hm (.verify k i j q sch)
  obtain ⟨b, rfl, hs, hs'⟩ := h2.2 hd
  refine ⟨b, ?_, hs, hs' hh⟩
  rw [h1, List.getLast?_append]
  rfl

end

/-! ### A concrete program -/

namespace Ex

/-- One byte for each element; every element is valid. -/
def byteCodec : Codec K where
  ser _ x := [UInt8.ofNat x.val]
  size _ _ := 1
  de _ _ bs := do
    let (b, rest) ← u8Codec.de .Yes .Yes bs
    if b.toNat < 7 then pure ((b.toNat : K), rest) else .error .invalidData
  check _ := .ok ()
  batchCheck := loopCheck fun _ => .ok ()

theorem byteCodec_de (m : Compress) (v : Validate) (bs : Bytes) (x : K) (rest : Bytes) :
    byteCodec.de m v bs = .ok (x, rest) ↔ bs = UInt8.ofNat x.val :: rest := by
  constructor
  · intro h
    simp only [byteCodec, u8Codec, ser_bind_ok, ser_pure, Prod.exists, Except.ok.injEq, Prod.mk.injEq] at h
    obtain ⟨a, b1, ⟨y, z, h1, h2, h3⟩, h4⟩ := h
    obtain ⟨h5, h6⟩ := readExact_iff.mp h1
    obtain ⟨w, rfl⟩ := List.length_eq_one_iff.mp h6
    simp only [List.headD_cons] at h2
    subst h2 h3
    split_ifs at h4 with h7
    simp only [Except.ok.injEq, Prod.mk.injEq] at h4
    obtain ⟨rfl, rfl⟩ := h4
    rw [kCodec_byte _ h7]
    exact h5
  · rintro rfl
    have h1 : u8Codec.de .Yes .Yes (UInt8.ofNat x.val :: rest) = .ok (UInt8.ofNat x.val, rest) := by
      simp [u8Codec, readExact, ser_ok_bind, ser_pure]
    have h2 : (UInt8.ofNat x.val).toNat = x.val := by
      have : x.val < 7 := ZMod.val_lt x
      rw [UInt8.toNat_ofNat', Nat.mod_eq_of_lt (by omega)]
    simp only [byteCodec, h1, ser_ok_bind, h2, ser_pure]
    rw [if_pos (ZMod.val_lt x), ZMod.natCast_val, ZMod.cast_id]

theorem byteCodec_lawful : byteCodec.Lawful where
  round m v x rest _ := (byteCodec_de m v _ x rest).mpr rfl
  size m x := rfl
  stream m v bs x rest h := by
    have h1 := (byteCodec_de m v bs x rest).mp h
    exact ⟨[UInt8.ofNat x.val], h1, fun rest' => (byteCodec_de m v _ x rest').mpr rfl⟩
  validate m bs x rest := by rw [byteCodec_de, byteCodec_de]; exact (and_iff_left rfl).symm
  batch l := by
    induction l with
    | nil => simp [byteCodec, loopCheck]
    | cons a l ih =>
      rw [List.forall_mem_cons, ← ih]
      exact unit_bind_ok

/-- The codecs of the example. -/
def codecs7 : Codecs K K K := ⟨byteCodec, byteCodec, byteCodec⟩

theorem codecs7_lawful : codecs7.Lawful :=
  ⟨byteCodec_lawful, byteCodec_lawful, byteCodec_lawful, fun _ => rfl, fun _ => rfl, fun _ => rfl⟩

/-- A program: commit to 2 on the left, to 3 and 4 one by one on the right, glue these together, prove `ppe7`, move the commitments
and the proof through bytes, copy the commitment, verify; an empty batch; then prove from a wrong value and verify again. -/
def prog7 : List (ApiCall K K K K) :=
  [.commitL 0 (.group 2), .commitR 0 (.group 3), .commitR 1 (.group 4), .appendR 0 1, .prove 0 0 0 (.ppe ppe7 [2] [3, 4]) (fun _ => backwards),
   .reloadL 0 .Yes .Yes, .reloadR 0 .No .Yes, .reloadP 0 .Yes .No, .cloneL 5 0, .verify 0 5 0 (.ppe ppe7) forwards,
   .batchL 1 (.group []), .verify 0 0 1 (.ppe ppe7) forwards, .prove 1 0 0 (.ppe ppe7 [3] [3, 4]) (fun _ => forwards),
   .verify 1 0 0 (.ppe ppe7) backwards]

example : (Store.init (5 : Nat) : Store Nat K K K).run e7 crs7 codecs7 prog7 =
    [.done, .done, .done, .done, .done, .done, .done, .done, .done, .verdict true, .panicked, .panicked, .done, .verdict false] := by
  decide +kernel

example : (Ledger.init : Ledger K K K K).Conforms e7 crs7 prog7 ((Store.init (5 : Nat)).run e7 crs7 codecs7 prog7) :=
  C100_ledger e7 prime7 crs7 crs7_generated crs7_nonzero codecs7 codecs7_lawful 5 prog7

/-- The claim of the example is well formed. -/
theorem claim7_wellFormed : (Claim.ppe ppe7 [2] [3, 4] : Claim K K K K).WellFormed :=
  ⟨by simp [Claim.xs, Batch.vals], by simp [Claim.ys, Batch.vals], ppe7_dims⟩

theorem after7 (sch : Nat → Scheduler) : (Ledger.init : Ledger K K K K).after [.commitAndProve 0 0 0 (.ppe ppe7 [2] [3, 4]) sch] =
    ⟨3, setAt (fun _ => []) 0 [⟨0, .group 2⟩], setAt (fun _ => []) 0 [⟨1, .group 3⟩, ⟨2, .group 4⟩],
      setAt (fun _ => .received []) 0 (.made (.ppe ppe7 [2] [3, 4]) [⟨0, .group 2⟩] [⟨1, .group 3⟩, ⟨2, .group 4⟩])⟩ := by
  simp only [Ledger.after, List.foldl_cons, List.foldl_nil, Ledger.step, if_pos claim7_wellFormed]
  rfl

theorem stays7 (sch : Nat → Scheduler) :
    (Ledger.init : Ledger K K K K).StaysInMemory [.commitAndProve 0 0 0 (.ppe ppe7 [2] [3, 4]) sch] := by
  rintro (_ | k)
  · refine ⟨fun _ => by simp [Ledger.after, Ledger.init, Fits64], fun _ => by simp [Ledger.after, Ledger.init, Fits64], ?_⟩
    intro k pfs h pf hpf
    cases h
    simp at hpf
  · rw [show List.take (k + 1) [ApiCall.commitAndProve 0 0 0 (.ppe ppe7 [2] [3, 4]) sch] = [.commitAndProve 0 0 0 (.ppe ppe7 [2] [3, 4]) sch]
      by simp, after7]
    refine ⟨fun i => ?_, fun i => ?_, fun k pfs h => ?_⟩
    · dsimp only [setAt]; split <;> simp [Fits64]
    · dsimp only [setAt]; split <;> simp [Fits64]
    · dsimp only [setAt] at h
      split at h
      · cases h
      · cases h; simp

/-- `C100_complete` and `C100_sound` for the program that calls `commit_and_prove` and `verify`: the verdict is `true`, and so the values
satisfy the equation. -/
example (sch : Nat → Scheduler) (sch' : Scheduler) :
    ((Store.init (5 : Nat) : Store Nat K K K).run e7 crs7 codecs7
      ([.commitAndProve 0 0 0 (.ppe ppe7 [2] [3, 4]) sch] ++ [.verify 0 0 0 (.ppe ppe7) sch'])).getLast? = some (.verdict true) ∧
    ppe7.Holds e7 [2] [3, 4] := by
  obtain ⟨b, h1, h2⟩ := C100_complete e7 prime7 crs7 crs7_generated crs7_nonzero codecs7 codecs7_lawful (5 : Nat)
    [.commitAndProve 0 0 0 (.ppe ppe7 [2] [3, 4]) sch] (stays7 sch) 0 0 0 (.ppe ppe7) sch'
    (by
      rw [after7]
      exact ⟨⟨2, 2, rfl, rfl, rfl⟩, rfl, rfl, Or.inr ⟨by decide, by decide, rfl, by rintro r ⟨⟩; rfl, by simp [ppe7, setAt]⟩⟩)
    (by rw [after7]; exact ⟨_, rfl, rfl, rfl, rfl⟩)
  rw [after7] at h2
  rw [h2.mpr ppe7_holds] at h1
  have := C100_sound e7 prime7 crs7 crs7_generated crs7_nonzero codecs7 codecs7_lawful (5 : Nat)
    [.commitAndProve 0 0 0 (.ppe ppe7 [2] [3, 4]) sch] (stays7 sch) 0 0 0 (.ppe ppe7) sch' h1
  rw [after7] at this
  exact ⟨h1, this⟩

end Ex

/-! ### Instances -/

namespace Ex

example (sch : Nat → Scheduler) (sch' : Scheduler) := C100_last e7 prime7 crs7 crs7_generated crs7_nonzero codecs7 codecs7_lawful (5 : Nat)
  [.commitAndProve 0 0 0 (.ppe ppe7 [2] [3, 4]) sch] (stays7 sch) (.verify 0 0 0 (.ppe ppe7) sch')

end Ex

end GS
