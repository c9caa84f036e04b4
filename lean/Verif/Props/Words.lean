import Verif.Lemmas.WordsField
import Verif.Props.Sample
import Verif.Spec.Bls381

/-!
# C126: elements of the fields as words of 64 bits

Everything else here is about residues. In memory they are arrays of words in Montgomery form, and all computing is with words and carries. It gives what it should, and no carry is lost.
-/

namespace GS
open Words

section
variable {m : Nat} {p : List Nat} {a b : List Nat}

/-- C126: each element has exactly one array of words, so comparing the words is comparing the elements. Zero is the array of zeros. -/
theorem C126_unique (h : IsModulus m p) :
    (∀ x : ZMod m, ∃! a, Element p a ∧ residue m p a = x) ∧
    (∀ a b, Element p a → Element p b → (a = b ↔ residue m p a = residue m p b)) ∧
    ∀ a, Element p a → (isZero a = true ↔ residue m p a = 0) := by
  obtain ⟨h, rfl⟩ := h
  refine ⟨fun x => ?_, fun a b ha hb => (elem_inj h ha hb).symm, fun a ha => ?_⟩
  · obtain ⟨a, ha, e⟩ := elem_surj h x
    exact ⟨a, ⟨ha, e⟩, fun b hb => (elem_inj h hb.1 ha).1 (hb.2.trans e.symm)⟩
  · rw [isZero_spec, decide_eq_true_eq]
    exact elem_eq_zero h ha

/-- C126: sums, differences, negatives and doubles. The sum of the words has no carry that would be lost. -/
theorem C126_add (h : IsModulus m p) (ha : Element p a) (hb : Element p b) :
    (Element p (add p a b) ∧ residue m p (add p a b) = residue m p a + residue m p b ∧ (addCarry a b 0).2 = 0) ∧
    (Element p (sub p a b) ∧ residue m p (sub p a b) = residue m p a - residue m p b) ∧
    (Element p (neg p a) ∧ residue m p (neg p a) = -residue m p a) ∧
    (Element p (double p a) ∧ residue m p (double p a) = 2 * residue m p a) := by
  obtain ⟨h, rfl⟩ := h
  exact ⟨add_spec h ha hb, sub_spec h ha hb, neg_spec h ha, (double_spec h ha).1, by rw [two_mul]; exact (double_spec h ha).2⟩

/-- C126: products and squares. The sums of two carries never overflow (where a debug build would panic), and the result is reduced. -/
theorem C126_mul (h : IsModulus m p) (ha : Element p a) (hb : Element p b) :
    (∃ c, mul p a b = some c ∧ Element p c ∧ residue m p c = residue m p a * residue m p b) ∧
    ∃ c, square p a = some c ∧ Element p c ∧ residue m p c = residue m p a ^ 2 := by
  obtain ⟨h, rfl⟩ := h
  refine ⟨mul_elem h ha hb, ?_⟩
  obtain ⟨c, h1, h2, h3⟩ := square_elem h ha
  exact ⟨c, h1, h2, by rw [pow_two]; exact h3⟩

/-- C126: squaring and multiplying give the same words, by two different ways. -/
theorem C126_square (h : IsModulus m p) (ha : Element p a) : square p a = mul p a a := by
  obtain ⟨⟨c, h1, h2, h3⟩, d, g1, g2, g3⟩ := C126_mul h ha ha
  rw [h1, g1, ((C126_unique h).2.1 d c g2 h2).2 (by rw [g3, h3, pow_two])]

/-- C126: inverses. The loop ends for every element; only 0 has none. -/
theorem C126_inverse [Fact m.Prime] (h : IsModulus m p) (ha : Element p a) :
    (residue m p a = 0 → inverse p a = some none) ∧
    (residue m p a ≠ 0 → ∃ c, inverse p a = some (some c) ∧ Element p c ∧ residue m p c = (residue m p a)⁻¹) := by
  obtain ⟨h, rfl⟩ := h
  exact inverse_elem h ha

/-- C126: sums of products, in chunks, with one reduction for each. -/
theorem C126_sum_of_products (h : IsModulus m p) (l : List (List Nat × List Nat)) (hl : ∀ t ∈ l, Element p t.1 ∧ Element p t.2) :
    ∃ c, sumOfProducts p l = some c ∧ Element p c ∧ residue m p c = (l.map fun t => residue m p t.1 * residue m p t.2).sum := by
  obtain ⟨h, rfl⟩ := h
  exact sumOfProducts_elem h hl

/-- C126: to numbers and back. A number that is not below the modulus is refused. Elements are ordered as their numbers. -/
theorem C126_numbers (h : IsModulus m p) (ha : Element p a) (hb : Element p b) :
    (intoBigint p a = ofNat p.length (residue m p a).val ∧ val (intoBigint p a) = (residue m p a).val) ∧
    (∀ n < 2 ^ (64 * p.length), (n < m → ∃ c, fromBigint p (ofNat p.length n) = some (some c) ∧ Element p c ∧ residue m p c = n) ∧
      (m ≤ n → fromBigint p (ofNat p.length n) = some none)) ∧
    Words.cmp (intoBigint p a) (intoBigint p b) = compare (residue m p a).val (residue m p b).val := by
  obtain ⟨h, rfl⟩ := h
  obtain ⟨h1, h2⟩ := intoBigint_elem h ha
  obtain ⟨g1, g2⟩ := intoBigint_elem h hb
  have : NeZero (val p) := ⟨by have := h.big; omega⟩
  refine ⟨⟨?_, h2⟩, fun n hn => ?_, ?_⟩
  · exact val_inj h1 (isWords_ofNat _ _) (by rw [h2, val_ofNat ((ZMod.val_lt _).trans (val_lt h.isWords))]; rfl)
  · have e := val_ofNat (n := p.length) (x := n) (by rw [b64_pow]; exact hn)
    have key := fromBigint_elem h (isWords_ofNat p.length n)
    rw [e] at key
    exact key
  · rw [cmp_spec h1 g1, h2, g2]; rfl

/-- C126: an element is written, in either byte order, as the bytes of its words, and read by making words of the bytes: this is what the formats of C76 and C114 do with residues. -/
theorem C126_bytes (h : IsModulus m p) (ha : Element p a) (k' : Nat) (c : Compress) (v : Validate) :
    (fpCodec m (8 * p.length) k').plain.ser c (residue m p a) = toBytes (intoBigint p a) ∧
    (beFp m (8 * p.length)).enc (residue m p a) = (toBytes (intoBigint p a)).reverse ∧
    (∀ bs : Bytes, bs.length = 8 * p.length → ∀ rest,
      (∀ x, (fpCodec m (8 * p.length) k').plain.de c v (bs ++ rest) = .ok (x, rest) ↔ ∃ d, fromBigint p (fromBytes p.length bs) = some (some d) ∧ residue m p d = x) ∧
      ∀ x, (beFp m (8 * p.length)).dec bs = some x ↔ ∃ d, fromBigint p (fromBytes p.length bs.reverse) = some (some d) ∧ residue m p d = x) := by
  obtain ⟨h, rfl⟩ := h
  obtain ⟨h1, h2⟩ := intoBigint_elem h ha
  have key : ∀ bs : Bytes, bs.length = 8 * p.length → ∀ x : ZMod (val p),
      (leNat bs < val p ∧ (leNat bs : ZMod (val p)) = x) ↔ ∃ d, fromBigint p (fromBytes p.length bs) = some (some d) ∧ residue (val p) p d = x := by
    intro bs hl x
    obtain ⟨f1, f2⟩ := fromBytes_spec hl
    obtain ⟨g1, g2⟩ := fromBigint_elem h f1
    rw [f2] at g1 g2
    by_cases hlt : leNat bs < val p
    · obtain ⟨d, d1, d2, d3⟩ := g1 hlt
      constructor
      · rintro ⟨-, rfl⟩; exact ⟨d, d1, d3⟩
      · rintro ⟨d', e, rfl⟩
        rw [d1] at e
        obtain rfl := Option.some.inj (Option.some.inj e)
        exact ⟨hlt, d3.symm⟩
    · constructor
      · rintro ⟨h, -⟩; exact absurd h hlt
      · rintro ⟨d, e, -⟩
        rw [g2 (not_lt.1 hlt)] at e
        exact absurd (Option.some.inj e) (by simp)
  refine ⟨?_, ?_, fun bs hl rest => ⟨fun x => ?_, fun x => ?_⟩⟩
  · rw [toBytes_eq h1, h2]; rfl
  · rw [toBytes_eq h1, h2]; rfl
  · rw [← key bs hl x]
    have e : readExact (8 * p.length) (bs ++ rest) = .ok (bs, rest) := by
      rw [readExact, if_neg (by rw [List.length_append]; omega), ← hl, List.take_left, List.drop_left]
    simp only [fpCodec, e]
    by_cases hlt : leNat bs < val p
    · simp [bind, Except.bind, pure, Except.pure, hlt]
    · simp [bind, Except.bind, hlt]
  · rw [← key bs.reverse (by rw [List.length_reverse]; exact hl) x]
    simp only [beFp]
    by_cases hlt : leNat bs.reverse < val p <;> simp [hlt]

/-- C126: the words that C115 draws are the words of the element that it draws. -/
theorem C126_drawn (bits : Nat) : (⟨m, 64, p.length, bits⟩ : FpConfig).fromMont (limbsNat 64 a) = residue m p a := by
  have e : limbsNat 64 a = val a := by
    induction a with
    | nil => rfl
    | cons x xs ih => rw [limbsNat, ih, val, B64]
  rw [e]; rfl

end

/-- C126: the scalars and the coordinates of BLS12-381 have moduli of this kind. -/
theorem C126_bls : IsModulus r381 frWords ∧ IsModulus p381 fqWords := by
  have h1 : val frWords = r381 := by simp only [frWords, val, B64]; norm_num [r381]
  have h2 : val fqWords = p381 := by simp only [fqWords, val, B64]; norm_num [p381]
  refine ⟨⟨⟨by decide +kernel, ?_, ?_, ?_⟩, h1⟩, ⟨⟨by decide +kernel, ?_, ?_, ?_⟩, h2⟩⟩
  all_goals first | rw [h1] | rw [h2]
  · exact ⟨(r381 - 1) / 2, by decide +kernel⟩
  · decide +kernel
  · show r381 < 2 ^ 255; decide +kernel
  · exact ⟨(p381 - 1) / 2, by decide +kernel⟩
  · decide +kernel
  · show p381 < 2 ^ (64 * fqWords.length - 1); decide +kernel

/-- C126, BLS12-381: what is in the memory of a scalar, a program that computes on words, and what it writes: `(x + y) * z` of three scalars read from bytes. -/
theorem C126_bls_scalars (c : Compress) (x y z : ZMod r381) :
    ∃ a b d, Element frWords a ∧ Element frWords b ∧ Element frWords d ∧ residue r381 frWords a = x ∧ residue r381 frWords b = y ∧ residue r381 frWords d = z ∧
      fromBigint frWords (fromBytes frWords.length (blsFr.ser c x)) = some (some a) ∧
      ((mul frWords (add frWords a b) d).map fun w => toBytes (intoBigint frWords w)) = some (blsFr.ser c ((x + y) * z)) := by
  have h := C126_bls.1
  obtain ⟨a, ⟨ha, rfl⟩, -⟩ := (C126_unique h).1 x
  obtain ⟨b, ⟨hb, rfl⟩, -⟩ := (C126_unique h).1 y
  obtain ⟨d, ⟨hd, rfl⟩, -⟩ := (C126_unique h).1 z
  obtain ⟨⟨s1, s2, -⟩, -⟩ := C126_add h ha hb
  obtain ⟨⟨w, w1, w2, w3⟩, -⟩ := C126_mul h s1 hd
  refine ⟨a, b, d, ha, hb, hd, rfl, rfl, rfl, ?_, ?_⟩
  · have e1 : blsFr.ser c (residue r381 frWords a) = toBytes (intoBigint frWords a) := (C126_bytes h ha 33 c .Yes).1
    obtain ⟨i1, i2⟩ := (C126_numbers h ha hb).1
    have hw : (toBytes (intoBigint frWords a)).length = 8 * frWords.length := by rw [← e1]; exact length_leBytes _ _
    obtain ⟨f1, f2⟩ := fromBytes_spec hw
    have hprime := r381_fact
    have hlt : (residue r381 frWords a).val < 2 ^ (64 * frWords.length) := by
      have := h.1.spare
      rw [h.2] at this
      exact (ZMod.val_lt _).trans (this.trans_le (Nat.pow_le_pow_right (by norm_num) (Nat.sub_le _ _)))
    have e2 : fromBytes frWords.length (toBytes (intoBigint frWords a)) = ofNat frWords.length (residue r381 frWords a).val := by
      refine val_inj f1 (isWords_ofNat _ _) ?_
      rw [f2, val_ofNat (by rw [b64_pow]; exact hlt), ← e1]
      refine leNat_leBytes _ _ ?_
      show _ < 256 ^ 32
      rw [show (256 : Nat) ^ 32 = 2 ^ (64 * frWords.length) by simp only [frWords, List.length_cons, List.length_nil]; norm_num]
      exact hlt
    obtain ⟨g, g1, g2, g3⟩ := ((C126_numbers h ha hb).2.1 _ hlt).1 (ZMod.val_lt _)
    rw [e1, e2, g1, ((C126_unique h).2.1 g a g2 ha).2 (by rw [g3, ZMod.natCast_zmod_val])]
  · rw [w1, Option.map_some, s2] at *
    rw [← w3]
    exact congrArg some (C126_bytes h w2 33 c .Yes).1.symm

namespace Ex

/-- A modulus of one word, and one of two: the hypotheses do not need BLS12-381. -/
example : IsModulus 7 [7] ∧ IsModulus (2 ^ 64 + 13) [13, 1] := by
  refine ⟨⟨⟨by decide, by decide, by decide, by decide⟩, rfl⟩, ⟨⟨by decide, ?_, ?_, ?_⟩, rfl⟩⟩
  · exact ⟨2 ^ 63 + 6, by decide +kernel⟩
  · decide +kernel
  · decide +kernel

/-- In memory 1 is `2 ^ 64 % 7 = 2`, and 3 is 6; their sum is 1, which is 4. -/
example : Element [7] [2] ∧ Element [7] [6] ∧ residue 7 [7] [2] = 1 ∧ residue 7 [7] [6] = 3 ∧ add [7] [2] [6] = [1] ∧ residue 7 [7] [1] = 4 :=
  ⟨⟨rfl, by decide, by decide⟩, ⟨rfl, by decide, by decide⟩, by decide +kernel, by decide +kernel, by decide +kernel, by decide +kernel⟩

/-- `3 * 3 = 2`, the inverse of 3 is 5. -/
example : mul [7] [6] [6] = some [4] ∧ residue 7 [7] [4] = 2 ∧ inverse [7] [6] = some (some [3]) ∧ residue 7 [7] [3] = 5 ∧ inverse [7] [0] = some none := by
  refine ⟨by decide +kernel, by decide +kernel, by decide +kernel, by decide +kernel, by decide +kernel⟩

/-- The constant for the scalars of BLS12-381 is the one in the source, and 1 is stored as it is there. -/
example : inv 0xffffffff00000001 = 0xfffffffeffffffff ∧
    fromBigint frWords [1, 0, 0, 0] = some (some [0x00000001fffffffe, 0x5884b7fa00034802, 0x998c4fefecbc4ff5, 0x1824b159acc5056f]) := by
  refine ⟨by decide +kernel, by decide +kernel⟩

end Ex

end GS
