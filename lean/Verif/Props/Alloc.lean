import Verif.Lemmas.Alloc
import Verif.Props.Serialization

/-!
# C108: the memory that reading takes

`lim` is the largest amount of memory that is granted at once, `sF`, `s`, `s1`, `s2`, `sT` are the sizes of scalars and group elements.
`MemLaws` (`Verif/Spec/Alloc.lean`) says for a type what is reserved, when reading is cut off, and that eight bytes are enough for that.
-/

namespace GS
variable {F G G1 G2 GT : Type}

theorem equType_lawful : EquType.codec.Lawful where
  round m v x rest _ := equType_good.round m v x rest trivial fun _ => trivial
  size := equType_good.size
  stream m v bs x rest h := (equType_good.stream m v bs x rest h).2
  validate m bs x rest := by
    rw [equType_good.validate]
    simp [Codec.Valid, equType_good.check]
  batch l := by
    rw [equType_good.batch]
    simp [Codec.Valid, equType_good.check]

theorem equType_needs : EquType.codec.Needs := fun _ _ => ⟨_, rfl⟩

variable {lim : Nat}

theorem com_mem {c : Codec G} (h : c.Lawful) (n : c.Needs) (s : Nat) : MemGood lim (Com.mem s c) (fun _ => []) 0 :=
  struct_mem (fun _ => rfl) (fun _ => rfl) (prod_mem (elem_mem h n s) (elem_mem h n s))

theorem coms_mem {c : Codec G} (h : c.Lawful) (n : c.Needs) (s : Nat) :
    MemGood lim (vecMem lim (Com.mem s c)) (fun l => [l.length * (s + s)]) (s + s) := by
  have := vec_mem (com_mem (lim := lim) h n s) (com_good h)
  simpa [Com.mem, structMem, prodMem, elemMem] using this

theorem elems_mem {c : Codec G} (h : c.Lawful) (n : c.Needs) (s : Nat) :
    MemGood lim (vecMem lim (elemMem s c)) (fun l => [l.length * s]) s := by
  have := vec_mem (elem_mem (lim := lim) h n s) h.good
  simpa [elemMem] using this

theorem mat_mem {c : Codec F} (h : c.Lawful) (n : c.Needs) (s : Nat) : MemGood lim (matMem lim s c) (matRoom s) (24 + s) := by
  have := vec_mem (elems_mem (lim := lim) h n s) (vec_good h.good)
  have e : ∀ l : List (List F), (l.map fun r => [r.length * s]).flatten = l.map fun r => r.length * s := by
    intro l
    induction l with
    | nil => rfl
    | cons a l ih => simp only [List.map_cons, List.flatten_cons, ih, List.singleton_append]
  simp only [e] at this
  exact this

theorem coms_starts {c : Codec G} (h : c.Lawful) (n : c.Needs) (s : Nat) : Starts lim (vecMem lim (Com.mem s c)) (s + s) :=
  fun m v k h0 hk => vec_eight (com_mem h n s) m v k h0 hk

theorem elems_starts {c : Codec G} (h : c.Lawful) (n : c.Needs) (s : Nat) : Starts lim (vecMem lim (elemMem s c)) s :=
  fun m v k h0 hk => vec_eight (elem_mem h n s) m v k h0 hk

/-- C108: `Com1` and `Com2` are read without reserving memory. -/
theorem C108_com {c : Codec G} (s : Nat) (m : Compress) (v : Validate) (bs : Bytes) :
    (Com.mem s c).de m v bs = ⟨[], (Reading.lift ((Com.codec c).de m v bs)).result⟩ := by
  simp only [Com.mem, structMem, prodMem, elemMem, Com.codec, structCodec, prodCodec]
  cases c.de m v bs with
  | error e => rfl
  | ok p => cases h : c.de m v p.2 with
    | error e => simp [Reading.bind_def, Reading.andThen, Reading.lift, ser_ok_bind, h]
    | ok q => simp [Reading.bind_def, Reading.andThen, Reading.lift, Reading.ret, ser_ok_bind, h]

/-- C108: `Commit1` and `Commit2`. -/
theorem C108_commit {cF : Codec F} {c : Codec G} (hF : cF.Lawful) (nF : cF.Needs) (h : c.Lawful) (n : c.Needs) (sF s : Nat) :
    MemLaws lim (Commit.mem lim sF s cF c) Commit.Fits (Commit.Elems cF.Valid c.Valid) (Commit.room sF s) (s + s) ((s + s) + (24 + sF)) :=
  (struct_mem (fun _ => rfl) (fun _ => rfl) (prod_mem (coms_mem h n s) (mat_mem hF nF sF))).laws (commit_good hF h)
    (starts_struct (starts_prod (coms_starts h n s))) (fun _ => rfl) le_rfl

/-- C108: `CRS`. -/
theorem C108_crs {c1 : Codec G1} {c2 : Codec G2} {cT : Codec GT} (h1 : c1.Lawful) (n1 : c1.Needs) (h2 : c2.Lawful) (n2 : c2.Needs)
    (hT : cT.Lawful) (nT : cT.Needs) (s1 s2 sT : Nat) :
    MemLaws lim (CRS.mem lim s1 s2 sT c1 c2 cT) CRS.Fits (CRS.Elems c1.Valid c2.Valid cT.Valid) (CRS.room s1 s2) (s1 + s1)
      ((s1 + s1) + (s2 + s2)) :=
  (struct_mem (fun _ => rfl) (fun _ => rfl) (prod_mem (coms_mem h1 n1 s1) (prod_mem (coms_mem h2 n2 s2) (prod_mem (elem_mem h1 n1 s1)
    (prod_mem (elem_mem h2 n2 s2) (elem_mem hT nT sT)))))).laws (crs_good h1 h2 hT)
    (starts_struct (starts_prod (coms_starts h1 n1 s1))) (fun _ => rfl) le_rfl

/-- C108: `EquProof`. -/
theorem C108_proof {cF : Codec F} {c1 : Codec G1} {c2 : Codec G2} (hF : cF.Lawful) (nF : cF.Needs) (h1 : c1.Lawful) (n1 : c1.Needs)
    (h2 : c2.Lawful) (n2 : c2.Needs) (sF s1 s2 : Nat) :
    MemLaws lim (EquProof.mem lim sF s1 s2 cF c1 c2) EquProof.Fits (EquProof.Elems cF.Valid c1.Valid c2.Valid) (EquProof.room sF s1 s2) (s2 + s2)
      ((s2 + s2) + ((s1 + s1) + (24 + sF))) :=
  (struct_mem (fun _ => rfl) (fun _ => rfl) (prod_mem (coms_mem h2 n2 s2) (prod_mem (coms_mem h1 n1 s1) (prod_mem (elem_mem equType_lawful equType_needs 1)
    (mat_mem hF nF sF))))).laws (proof_good hF h1 h2)
    (starts_struct (starts_prod (coms_starts h2 n2 s2))) (fun _ => rfl) (by omega)

/-- C108: `PPE`. -/
theorem C108_ppe {cF : Codec F} {c1 : Codec G1} {c2 : Codec G2} {cT : Codec GT} (hF : cF.Lawful) (nF : cF.Needs) (h1 : c1.Lawful) (n1 : c1.Needs)
    (h2 : c2.Lawful) (n2 : c2.Needs) (hT : cT.Lawful) (nT : cT.Needs) (sF s1 s2 sT : Nat) :
    MemLaws lim (PPE.mem lim sF s1 s2 sT cF c1 c2 cT) PPE.Fits (PPE.Elems cF.Valid c1.Valid c2.Valid cT.Valid) (PPE.room sF s1 s2) s1
      (s1 + (s2 + (24 + sF))) :=
  (struct_mem (fun _ => rfl) (fun _ => rfl) (prod_mem (elems_mem h1 n1 s1) (prod_mem (elems_mem h2 n2 s2) (prod_mem (mat_mem hF nF sF)
    (elem_mem hT nT sT))))).laws (ppe_good hF h1 h2 hT)
    (starts_struct (starts_prod (elems_starts h1 n1 s1))) (fun x => by simp [PPE.room]) le_rfl

/-- C108: `MSMEG1`. -/
theorem C108_msmeg1 {cF : Codec F} {c1 : Codec G1} (hF : cF.Lawful) (nF : cF.Needs) (h1 : c1.Lawful) (n1 : c1.Needs) (sF s1 : Nat) :
    MemLaws lim (MSMEG1.mem lim sF s1 cF c1) MSMEG1.Fits (MSMEG1.Elems cF.Valid c1.Valid) (MSMEG1.room sF s1) s1 (s1 + (sF + (24 + sF))) :=
  (struct_mem (fun _ => rfl) (fun _ => rfl) (prod_mem (elems_mem h1 n1 s1) (prod_mem (elems_mem hF nF sF) (prod_mem (mat_mem hF nF sF)
    (elem_mem h1 n1 s1))))).laws (msmeg1_good hF h1)
    (starts_struct (starts_prod (elems_starts h1 n1 s1))) (fun x => by simp [MSMEG1.room]) le_rfl

/-- C108: `MSMEG2`. -/
theorem C108_msmeg2 {cF : Codec F} {c2 : Codec G2} (hF : cF.Lawful) (nF : cF.Needs) (h2 : c2.Lawful) (n2 : c2.Needs) (sF s2 : Nat) :
    MemLaws lim (MSMEG2.mem lim sF s2 cF c2) MSMEG2.Fits (MSMEG2.Elems cF.Valid c2.Valid) (MSMEG2.room sF s2) sF (sF + (s2 + (24 + sF))) :=
  (struct_mem (fun _ => rfl) (fun _ => rfl) (prod_mem (elems_mem hF nF sF) (prod_mem (elems_mem h2 n2 s2) (prod_mem (mat_mem hF nF sF)
    (elem_mem h2 n2 s2))))).laws (msmeg2_good hF h2)
    (starts_struct (starts_prod (elems_starts hF nF sF))) (fun x => by simp [MSMEG2.room]) le_rfl

/-- C108: `QuadEqu`. -/
theorem C108_quad {cF : Codec F} (hF : cF.Lawful) (nF : cF.Needs) (sF : Nat) :
    MemLaws lim (QuadEqu.mem lim sF cF) QuadEqu.Fits (QuadEqu.Elems cF.Valid) (QuadEqu.room sF) sF (sF + (sF + (24 + sF))) :=
  (struct_mem (fun _ => rfl) (fun _ => rfl) (prod_mem (elems_mem hF nF sF) (prod_mem (elems_mem hF nF sF) (prod_mem (mat_mem hF nF sF)
    (elem_mem hF nF sF))))).laws (quad_good hF)
    (starts_struct (starts_prod (elems_starts hF nF sF))) (fun x => by simp [QuadEqu.room]) le_rfl

/-- C108: on every machine, eight bytes stop whoever reads a commitment, a CRS, a proof or an equation with a panic, with and without
validation. -/
theorem C108_eight_bytes_stop {cF : Codec F} {c1 : Codec G1} {c2 : Codec G2} {cT : Codec GT} (hF : cF.Lawful) (nF : cF.Needs)
    (h1 : c1.Lawful) (n1 : c1.Needs) (h2 : c2.Lawful) (n2 : c2.Needs) (hT : cT.Lawful) (nT : cT.Needs) {sF s1 s2 : Nat} (sT : Nat)
    (zF : 0 < sF) (z1 : 0 < s1) (z2 : 0 < s2) (hl : lim < 2 ^ 63) (m : Compress) (v : Validate) :
    (∃ k, ((Commit.mem lim sF s1 cF c1).de m v (List.replicate 8 255)).result = .error (.refused k)) ∧
    (∃ k, ((Commit.mem lim sF s2 cF c2).de m v (List.replicate 8 255)).result = .error (.refused k)) ∧
    (∃ k, ((CRS.mem lim s1 s2 sT c1 c2 cT).de m v (List.replicate 8 255)).result = .error (.refused k)) ∧
    (∃ k, ((EquProof.mem lim sF s1 s2 cF c1 c2).de m v (List.replicate 8 255)).result = .error (.refused k)) ∧
    (∃ k, ((PPE.mem lim sF s1 s2 sT cF c1 c2 cT).de m v (List.replicate 8 255)).result = .error (.refused k)) ∧
    (∃ k, ((MSMEG1.mem lim sF s1 cF c1).de m v (List.replicate 8 255)).result = .error (.refused k)) ∧
    (∃ k, ((MSMEG2.mem lim sF s2 cF c2).de m v (List.replicate 8 255)).result = .error (.refused k)) ∧
    (∃ k, ((QuadEqu.mem lim sF cF).de m v (List.replicate 8 255)).result = .error (.refused k)) := by
  have e : List.replicate 8 255 = leBytes 8 (2 ^ 64 - 1) := by decide
  rw [e]
  have big : ∀ s, 0 < s → lim < (2 ^ 64 - 1) * s := fun s hs => by
    have := Nat.mul_le_mul_left (2 ^ 64 - 1) hs
    omega
  have a : 0 < 2 ^ 64 - 1 := by norm_num
  have b : 2 ^ 64 - 1 < 2 ^ 64 := by norm_num
  exact ⟨⟨_, ((C108_commit hF nF h1 n1 sF s1).eight m v _ a b).2.2 (big _ (by omega))⟩,
    ⟨_, ((C108_commit hF nF h2 n2 sF s2).eight m v _ a b).2.2 (big _ (by omega))⟩,
    ⟨_, ((C108_crs h1 n1 h2 n2 hT nT s1 s2 sT).eight m v _ a b).2.2 (big _ (by omega))⟩,
    ⟨_, ((C108_proof hF nF h1 n1 h2 n2 sF s1 s2).eight m v _ a b).2.2 (big _ (by omega))⟩,
    ⟨_, ((C108_ppe hF nF h1 n1 h2 n2 hT nT sF s1 s2 sT).eight m v _ a b).2.2 (big _ (by omega))⟩,
    ⟨_, ((C108_msmeg1 hF nF h1 n1 sF s1).eight m v _ a b).2.2 (big _ (by omega))⟩,
    ⟨_, ((C108_msmeg2 hF nF h2 n2 sF s2).eight m v _ a b).2.2 (big _ (by omega))⟩,
    ⟨_, ((C108_quad hF nF sF).eight m v _ a b).2.2 (big _ (by omega))⟩⟩

/-! ### Instances -/

namespace Ex

theorem kCodec_needs : kCodec.Needs := fun _ _ => ⟨_, rfl⟩

section
variable (m : Compress) (v : Validate) (bs : Bytes)

example := C108_com (c := kCodec) 48 m v bs
example := C108_commit (lim := 1000) kCodec_lawful kCodec_needs kCodec_lawful kCodec_needs 32 96
example := C108_crs (lim := 1000) kCodec_lawful kCodec_needs kCodec_lawful kCodec_needs kCodec_lawful kCodec_needs 96 192 576
example := C108_proof (lim := 1000) kCodec_lawful kCodec_needs kCodec_lawful kCodec_needs kCodec_lawful kCodec_needs 32 96 192
example := C108_ppe (lim := 1000) kCodec_lawful kCodec_needs kCodec_lawful kCodec_needs kCodec_lawful kCodec_needs kCodec_lawful kCodec_needs 32 96 192 576
example := C108_msmeg1 (lim := 1000) kCodec_lawful kCodec_needs kCodec_lawful kCodec_needs 32 96
example := C108_msmeg2 (lim := 1000) kCodec_lawful kCodec_needs kCodec_lawful kCodec_needs 32 192
example := C108_quad (lim := 1000) kCodec_lawful kCodec_needs 32
example := C108_eight_bytes_stop (lim := 2 ^ 40) kCodec_lawful kCodec_needs kCodec_lawful kCodec_needs kCodec_lawful kCodec_needs kCodec_lawful
  kCodec_needs (sF := 32) (s1 := 96) (s2 := 192) 576 (by decide) (by decide) (by decide) (by decide) m v

/-- Two commitments with their randomness are read if 400 bytes are granted, but not if 300 are: they need 2 * 192 bytes. -/
example : (Commit.mem 400 32 96 kCodec kCodec).de m .No ((Commit.codec kCodec kCodec).ser m commit7 ++ [9]) =
    ⟨[384, 48, 64, 64], .ok (commit7, [9])⟩ :=
  ((C108_commit (lim := 400) kCodec_lawful kCodec_needs kCodec_lawful kCodec_needs 32 96).round m .No commit7 [9] commit7_fits (by simp)).1
    (by decide)
example : ∃ n, ((Commit.mem 300 32 96 kCodec kCodec).de m .No ((Commit.codec kCodec kCodec).ser m commit7 ++ [9])).result =
    .error (.refused n) :=
  ((C108_commit (lim := 300) kCodec_lawful kCodec_needs kCodec_lawful kCodec_needs 32 96).round m .No commit7 [9] commit7_fits (by simp)).2
    (by decide)

end

end Ex

end GS
