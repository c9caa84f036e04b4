# Formal model of groth-sahai-rs in Lean 4

## 1. What is modelled

All code in `/repo`: library, tests and benchmarks (not the commented-out impls at `data_structures.rs` 228-243,
553-585, 749-766):

| Rust | Lean |
|---|---|
| panics, `assert_eq!`, slice indexing, loops | `Verif/Model/Basic.lean` |
| rayon `into_par_iter().map().collect()` as arbitrary task orders | `Verif/Model/Par.lean` |
| the same loops as a machine of interleaved single steps | `Verif/Model/Conc.lean` |
| whole calls as such machines, any number of them at the same time | `Verif/Model/Calls.lean` |
| `data_structures.rs` 125-541 (`Com1`, `Com2`, `ComT`, linear maps, pairing) | `Verif/Model/Com.lean` |
| `data_structures.rs` 37-48, 144-160, 543-913 (matrices) | `Verif/Model/Matrix.lean` |
| hand-written and derived `==` of all public types | `Verif/Model/Eq.lean` |
| `R: Rng` | `Verif/Model/Rng.lean` |
| `generator.rs` | `Verif/Model/Generator.lean` |
| `prover/commit.rs` | `Verif/Model/Commit.lean` |
| `statement.rs` (types, `EquType`) | `Verif/Model/Statement.lean` |
| `prover/prove.rs` | `Verif/Model/Prove.lean` |
| `verifier.rs` | `Verif/Model/Verify.lean` |
| `commit.rs`, `prove.rs` again, keeping what is behind `&mut` on a panic | `Verif/Model/Unwind.lean` |
| `verifier.rs` again, without assuming laws of its points | `Verif/Model/Raw.lean` |
| `prover/commit.rs`, `prover/prove.rs` again, without assuming laws of their points | `Verif/Model/RawProve.lean` |
| all of the above again, recording the arithmetic operations executed | `Verif/Model/Trace.lean` |
| `CanonicalSerialize`, `CanonicalDeserialize`, `Valid` impls and derives | `Verif/Model/Serialize.lean` (byte strings), `Verif/Model/Io.lean` (any `Write`, `Read`) |
| a receiver: deserialize the fields of a `CProof`, then `verify` | `Verif/Model/Message.lean` |
| deserialization again, with the memory reserved for vectors | `Verif/Model/Alloc.lean` |
| arkworks' codecs of prime fields, quadratic extensions, short Weierstrass points, target group elements (dependencies) | `Verif/Model/Element.lean` |
| ark-bls12-381's codec of points (dependency) | `Verif/Model/Bls.lean` |
| constants of ark-bls12-381, its tests for the subgroups, square roots and order of its fields (dependency) | `Verif/Model/Bls381.lean` |
| the towers of fields over the prime field of ark-bls12-381 and the test for its target group (dependency) | `Verif/Model/Target.lean` |
| points in affine and Jacobian coordinates, arithmetic and multiplication by scalars of ark-ec on them, CRS generation on coordinates (dependency) | `Verif/Model/Coord.lean` |
| Miller's loop, the final exponentiation, `pairing` and `multi_pairing` of ark-ec for BLS12-381 (dependency) | `Verif/Model/Miller.lean` |
| the verifiers and the CRS generator with a pairing that may panic | `Verif/Model/Ark.lean` |
| drawing scalars and points from the words of the RNG, ark-ff and ark-ec (dependency) | `Verif/Model/Sample.lean` |
| derived `Debug` | `Verif/Model/Debug.lean` |
| the test functions in `src` and `tests` | `Verif/Model/Tests.lean` |
| `benches/bench.rs` | `Verif/Model/Bench.lean` |

Every definition cites file and lines. Modelling conventions:

* **Algebra.** `E: Pairing` becomes: a field `F` (`E::ScalarField`), `F`-modules `G1`, `G2`, `GT`
  (each written additively, as arkworks does) and an `F`-bilinear map `e : G1 →ₗ[F] G2 →ₗ[F] GT`
  (`E::pairing`).  The theorems hold for *every* such tuple.  Where a property needs that the groups
  have prime order and the pairing is non-degenerate, this is an explicit hypothesis (`PrimeGroups e`);
  where it counts or averages, `F` (and the groups) are finite.
  Affine and projective representation of one point are one model value: `.into()`, `.into_group()`,
  `.into_affine()` are the identity (in C122 they are not: coordinates are computed with as arkworks does).  `E::multi_pairing(a, b)` is the sum of `e a_i b_i` (proved in C123 for BLS12-381).
* **Panics.** Every function that can panic returns `Res α = Except Panic α`.  Slice indexing is
  `idx`, failing out of bounds; `assert_eq!` is `assertEq`.
  Loops that push into a vector are `collect f (List.range n)`, which stops at the first panic.
  The code contains no `unwrap`, no `debug_assert` and no integer arithmetic that could overflow.
* **Randomness.** `R: Rng` becomes a type `ρ` with an instance `Rng ρ F G1 G2`, i.e. functions
  `randF : ρ → F × ρ`, `randG1`, `randG2`; no law is assumed, so theorems hold for every generator.
  Functions taking `&mut rng` return the new state.  The tape instance (`ρ = List F`, `Verif/Spec/Tape.lean`) turns
  statements about distributions into statements about counting tapes.  That arkworks turns a uniform generator into uniform
  field and group elements is modelled in `Verif/Model/Sample.lean` only (C115, C118, C119, C121); other statements about probabilities are about uniform elements.
* **Threads.** A `Scheduler` chooses, for every pair of dimensions, an arbitrary order (permutation)
  of all `(row, column)` tasks of one parallel product.  Tasks run in that order and write their result to their own
  slot; a panic in a task aborts the product with that panic.  `prove` and `commit_and_prove` take a
  `Nat → Scheduler`, a scheduler for each product they start; `verify`, which starts one product, takes one `Scheduler`.
  All theorems quantify over the schedulers.  `Verif/Model/Conc.lean` models the same loops finer (row and entry tasks,
  single additions, panics that are noticed late); C68 shows that every execution of it ends and ends with the outcome used
  in the other theorems.  `Verif/Model/Calls.lean` does so for whole calls of `prove`, `commit_and_prove` and `verify`, of
  which any number may run at the same time (C83).
* **Duplicated code.** `Com1`/`Com2` group operations and matrix operations come from one macro and
  are modelled once, generically (`Com G`).  The `B1`/`B2` impl blocks (linear maps), the field
  matrix impl and the four provers/verifiers are modelled separately.
* **Serialization.** ark-serialize 0.5 is not in `/repo`; the derive macro and the codecs of `u8`, `u64` and `Vec` are modelled after
  their documented behaviour (fields in order, little endian, `u64` length prefix, elements of a vector read without validation
  and then validated by one `batch_check`; for C108 also `Vec::with_capacity` with the length read).  The codecs of field and group elements are parameters, required to be lawful where needed
  (`Codec.Lawful`: what was written is read back, leaving the rest of the input).  `std::io::Write::write_all` and `Read::read_exact`
  are modelled after their documentation.
* **Debug output.** The derive macro and the builders of `std::fmt` are modelled after their documented output, for `{:?}` and `{:#?}`;
  the output of field and group elements is a parameter, required to be readable (`Dbg.Clear`).

Not modelled: formats of element codecs other than those of C110 and C114; the assembly that ark-ff has for some processors (words and carries are those of its Rust source, C126, and so are the formulas of the extension fields and of the pairing, C127, and of points, C128; elsewhere
the fields are fields, and the formulas for points are arkworks' from C122 on); points that are not on the curve, other than in the codecs (C110, C114, C120), in verification from bytes (C121) and where the pairing panics (C124); points outside the
prime-order subgroup, which enter through unchecked constructors or `Validate::No`, other than in C101 and C107, for `verify`, and in C106, for committing and proving; allocation
and memory exhaustion other than the memory reserved for vectors while deserializing (C108); timing and other side channels (beyond the sequence of operations of C90); the marker types `Equ` and `Statement` and
`get_type` beyond its value; rayon's work stealing beyond what is said under Threads.

## 2. Trusted base

* Lean's kernel (4.33.0), and for each theorem only axioms among `propext`, `Classical.choice`,
  `Quot.sound`; section 6 lists them theorem by theorem.  No axioms are added; no `sorry`, `admit`, `native_decide`, `bv_decide`.
* The faithfulness of the model to the Rust text, argued by the file/line citation at each definition.
* The contracts of dependencies listed in section 1: modules, bilinear pairing, multi-pairing is the sum (for BLS12-381 these are theorems about the model of
  arkworks: C120, C122, C123),
  lawful element codecs (for C110 the arkworks codecs themselves, modelled after their source), ark-serialize's derive, ordered collection of indexed parallel iterators.
* The definitions in `Verif/Spec` and in the theorem statements, which say what a property means; they use no helper of a proof.

## 3. Layout

`Verif/Model` model; `Verif/Spec` independent specifications; `Verif/Lemmas` helper lemmas of proofs;
`Verif/Props` property theorems, named `Cnn_...`, each with a case beside it that meets its hypotheses
(`Verif/Props/Example.lean`: `F = G1 = G2 = GT = ZMod 7`, `e` = multiplication);
`Verif/Check/UnitTests.lean` the repository's own tests, run against the model with their random values universally quantified
(evidence for the model only, no claim rests on it).

| Spec | says |
|---|---|
| `Basic`, `Matrix`, `Domain` | returning and panicking; rectangular matrices as Mathlib matrices; sizes accepted by `verify` |
| `Equation` | when values satisfy an equation, `Dims`, `PrimeGroups` |
| `Crs` | generated and simulated CRS, nonzero generators |
| `Opening`, `AnyCrs` | a commitment opens to a value; binding and equivocal keys |
| `Replay` | probability of an outcome of a call with uniform draws |
| `Twice` | pairs of runs on one tape; what a bystander computes from them |
| `Seeded` | generators started from a random seed |
| `Raw` | projections onto the prime-order subgroups, pairings that ignore the rest |
| `Session` | client programs: their variables, calls and outcomes; the ledger of committed values and what it allows |
| `Accept` | the published verification equations |
| `Tape`, `Hiding`, `Games`, `ComGame`, `Counts`, `Reuse` | tapes, views and their distribution, games with uniform draws |
| `Joint` | several equations of any types about shared commitments |
| `Selective` | opening some of the commitments of a statement |
| `Simulator`, `Extract`, `Refresh` | what a simulator, an extractor and an outsider compute |
| `Leak`, `RandLeak` | what an eavesdropper computes from recorded randomness |
| `Published` | coefficients of variables |
| `Calls` | what a call can end with |
| `Serialize`, `Io` | laws of element codecs, sizes, validity; runs with writers and readers |
| `Message` | messages, codecs that check membership in the subgroup |
| `Alloc` | sizes of the vectors in a value, what reading reserves |
| `Encoding`, `EncodedMessage` | encodings of composite values, given those of elements |
| `Mismatch` | commit to some values, prove with others |
| `CodecMaps`, `WordPoints` | formats that correspond; points, scalars and target elements read, written and drawn in words |
| `ScalarWords` | the field of scalars in words, and the groups over it |
| `TowerPoint` | the Jacobian coordinates that words stand for |
| `Tower` | what it means that operations compute in a field; the elements that pairs and triples stand for; the cyclotomic subgroup; right tables |
| `TowerWords` | words with the operations of C126 as a prime field |
| `Words` | arrays of words that hold a modulus or an element, and the residues they stand for |
| `Sent` | the program of `Joint` on coordinates, what it sends, and a receiver |
| `Ark` | the verifiers with the panics of the pairing |
| `Miller` | the pairing of coordinates, as a total function |
| `Coord` | which coordinates stand for a point, when multiplication of coordinates by scalars is right on a set of points, when a pairing on coordinates is that of a bilinear map |
| `Target` | the elements of the target group of BLS12-381 and their bytes, the elements of a CRS or equation replaced by their representations, a verifier that is given bytes only, what binding keys mean for an equation |
| `Bls381` | the two curves of BLS12-381, the formats of their coordinates, multiplication by the cofactor |
| `Tests` | a test passes from a state |
| `Sample` | what is asked of the numbers of a field; the words of a generator; how often scalars and points are drawn |
| `Bls` | what is asked of the format of coordinates; curves without points of order two; codecs that validate in full |
| `Derived` | combinations of variables, and equations about them in terms of the variables |
| `Sizes` | element codecs whose encodings all have the same length |
| `Element` | laws of base fields, square roots and orders; points on the curve |
| `Debug` | output of elements that can be read |
| `Adaptive` | adversaries that choose a program's calls, the left/right game |
| `AdaptiveZk` | calls without their secrets, the simulator of a whole program, the game against it |
| `Tamper`, `Convert` | coefficients; equations and proofs of other types |
| `Mirror` | what is exchanged with the two source groups |
| `Transport` | images of data under homomorphisms of bilinear groups |
| `Trace` | same operations, same sizes, price of a run |
| `Unwind` | what is observable after a panic |

`/verif/seeded/LOG.jsonl` records the wrong programs tried against the theorems (one edit of the model each), which theorems failed and which were
tightened.

## 4. Plan per property

* C01-C04 completeness: run the model on rectangular inputs, obtaining closed forms of commitments and
  proofs with finite sums; one generic bilinear identity over abstract modules gives all four types.
* C05-C08 soundness: from `verify = ok true`, derive the dimensions, apply the projections
  `p(c0,c1) = c1 - a c0` that kill the binding key, obtain the equation over extracted values.
* C09 from the identity behind completeness plus injectivity of the target maps.
* C10, C11 injectivity from the same projections.
* C12 by extraction being a function of the commitments only.
* C13-C16 a generic lemma over abstract modules: linearly independent keys, all images in their span,
  and non-degeneracy give a bijection of randomness; four instances.
* C17 as C13-C16, for the commitments alone.
* C18 induction over the list, with the closed form of `left_mul`.
* C19-C21 induction over histories / lists of equations; invariant: commitment opens to the value list.
* C22, C23 induction over the task order; slots written once; `ok` results coincide; panics coincide.
* C24-C29 index lemmas about `collect` and `idx`; rectangular matrices as `Fin m → Fin n → α`.
* C30-C33, C52 componentwise algebra.
* C34, C35 unfold `generate_crs`; linear algebra.
* C36, C37 inversion lemmas: success of each step gives length facts; conversely closed forms.
* C38, C39, C43, C45-C48 corollaries of the above, for arbitrary inputs on which the calls return.
* C40-C42 codec combinators with prefix round-trip, prefix-monotonicity; base codecs assumed lawful.
* C44 the property as expected by a user is false: prove its negation (recoverability from the serialized commitment).
* C49 soundness for nonzero generators from C05-C08; for a zero generator explicit accepted proofs of false statements.
* C50 simulator: prover run with the zero witness in which the commitment to the constant 1 is opened to 0 with the trapdoor.
* C51 concrete reduction: hybrid argument with finite counting, binding -> random -> hiding on each side.
* C53 closed form of `verify`: it accepts exactly if the shapes fit and the published pairing equation holds.
* C54 the verification equation with commitments opened to the witness is a linear system for R, S, T, solvable since the key elements span.
* C55 a simulated CRS opens every commitment to every value, so honest proofs of other values serve for false statements.
* C56, C57 hybrid over the CRS (C51), then C13-C16 or C50 on the simulated CRS, and back.
* C58, C59 canonical codecs and validation, by the same combinators as C40-C42.
* C60 one commitment step followed by `proveAll`, with the honest-run lemma of each kind.
* C61, C62 couplings of tapes (`Verif/Lemmas/Couple.lean`), composed along the monadic program; the per-equation coupling
  holds for *any* two openings of equal commitments.
* C63 as C56/C57, with everything allowed to depend on the CRS.
* C64 the expected property (whole proofs are witness indistinguishable) is false: prove the bystander's formula, and on hiding keys the
  exact condition (`fullFn_iff`: T fixed and commitments independent force the same `Γᵀx`, `x·b`; conversely a shift of R and S).
* C65 apply `c1 - a c0`, with `a` the scalar drawn by `generate_crs`, to all commitments; the verification equation turns into the
  equation. Scalar equations are stated on multiples of the generators (`lifted`), with the condition for going back.
* C66 `refresh` is a specification of what an outsider computes. Acceptance: the completeness identity with commitments in place of
  values. Distribution: refreshing the view of randomness `r0` with `r` is the view of randomness `shiftRands r0 r`, a bijection in `r`;
  with C54 for simulated keys.
* C67 the verification equation is linear in constants, target and proof.
* C68 `Verif/Model/Conc.lean` is a small-step machine for the nested parallel loops, finer than `parGrid`. Invariant: what a running entry
  still has to add plus its accumulator is the entry's sum; a size of the state that decreases with every step; progress by cases.
* C69 `Verif/Model/Unwind.lean` writes the functions with a `&mut` argument again in a monad that keeps the state on a panic. Forgetting
  the state gives the functions of the other files (so C69 speaks about the same functions as the rest). The state is computed by going
  through the code: checks, then draws, then a part that has no access to the generator.
* C70 as C67: with `gamma = 0` the verification equation is linear in commitments, target and proof together.
* C71 solves for the randomness: the opening fixes a combination of each row of R and S, the second proof elements are met by the remaining
  freedom (a coefficient must be nonzero, or they extract to zero), and what is left is a trivial proof of `0 = 0`, hence a multiple of
  the first key element (`pairL_key_zero`), which fixes T.
* C72 `Verif/Model/Eq.lean` writes out the hand-written and derived `==`; each is shown to be equality.
* C73-C75 `verify` has the same outcome for two equations if the sizes fit (C37) and the verification equations are equivalent
  (`verify_same`); reordering a finite sum, dropping a zero term, moving a known term to the constants and the target. For `prove` the
  closed forms of pi and theta are reordered.
* C76 a generated CRS is sound exactly if both generators are nonzero (C05-C08, C49); average the product of two indicators.
* C77 instantiate C09 with the documented fields and compute the left-hand side.
* C78 `x (u1 + (O, g)) + r u0 = (O, x g) + r u0 + x u1`; then the honest-run lemmas and C12.
* C79 by definition for fields that are not read; otherwise subtract the two verification equations (C53), what is left is
  `F(Σ b_i c_i, (O, δ)) = F(ι(t), (O, δ))` with `δ` the difference of the generators.
* C80 C53 gives one equation in `GT`; replacing an element adds `F(δ, w)` to one side, which is 0 exactly if `δ` or `w` is
  (nondegeneracy, componentwise).
* C81 `F(c, b (v1 + (O, g))) = F(c, (O, b g)) + F(b c, v1)`: the second terms and the target make up the added proof element.
* C82 model: `serialize` as list of buffers for `write_all`, `deserialize` as program over `read_exact`, with one rule for each
  answer of `write` and `read`, and for a crash. Applied to byte strings these are the codecs of C41; then C41, C42, C59.
* C83 model: each call is code with parallel products in between; its value `eval` is the sequential one (C68), and is invariant
  under steps. Steps of a call are well-founded by induction on its code; calls share no mutable state.
* C84 exact domain and equation of `verify` (C37, C53), whose 2×2 matrix is transposed by the exchange; for `prove` the proof computed from
  `T` is the exchanged one computed from `Rᵀ Γ S − Tᵀ`, a bijection of the randomness.
* C85 first half of the hybrid argument of C51: only the key in G1 is replaced by a hiding one, under which the commitments are
  perfectly hiding; for G2 with exchanged groups (C84).
* C86 fibres of the affine maps from tapes to commitments (key relations: a line on a binding key, none on a hiding one) and from
  tapes to proofs (matrices `T` with `T u = 0` and `Tᵀ v = 0`); for `commit_and_prove` translation by the difference of two tapes
  with the same commitments. Counts are `Nat.card`, so they say something for finite `F`.
* C87 the first coordinates of the verification equation pair the random generator with `π_0 + t π_1` (or, for scalar variables, with
  `π_0 + t X`), which vanishes for at most one `t`; otherwise at most one generator satisfies the equation (nondegeneracy).
* C88 the homomorphisms act on the closed forms of `prove` (linear in the group elements) and on both sides of the verification
  equation; the domains (C36, C37) depend only on sizes; `commit_and_prove` is composed from its parts.
* C89 closed form of the batch commitments; the second commitment is the first plus known differences, then C17.
* C90 a second model of every function that also returns the list of operations (`Model/Trace.lean`), proved equal to the
  first; then a relational argument: related inputs (same sizes) give the same list.
* C91 price of a run as a sum over the list of operations; every `pairing_sum` asserts the lengths before it pairs, so the sizes
  of the message are those of the statement where it matters.
* C92 the same logic of prices, for matrices of known dimensions.
* C93 binding and equivocal keys defined by openings (`Spec/AnyCrs.lean`); a nonzero `(O, Z)` in the span of a key generates all
  of them, so a key that is not binding is equivocal; translation of the randomness as bijection of tapes.
* C94 a functional `(c0, c1) ↦ α c0 + β c1` that vanishes on the key but not on embedded values, applied to the verification
  equation on both sides; explicit accepted proofs of `0 = t` for the other keys.
* C95 an explicit change of the randomness (a translation of the commitment randomness and a shear of the proof randomness)
  that needs no independence of the key elements; conversely equal commitments to two values contradict binding.
* C96 the same change of randomness with one side fixed.
* C97 two equations accepted for one message give a relation between the commitments; counting by shifting one entry of the randomness, at most
  two parts in `|F|` of the randomness satisfy a nontrivial relation. The untied message is the prover's output for randomness 0.
* C98 with the same randomness the difference of the two `pi` is `R^T` applied to the difference of the weights, so pairing the commitments
  with that difference and the keys with the difference of the `pi` cancels `R`. Exactness: explicit shift of `R`, `S` and `T` in coordinates.
* C99 a run with any generator is the run on the tape of its draws (C39), so the averages differ by an advantage against the generator;
  triangle inequality with C13-C17 and C56.
* C100 invariant over histories: a table from serial numbers to commitments such that every variable holds the commitments of its
  items; each call keeps it (C36-C38, C41, C19, C69), and verdicts follow from completeness and C12/C78.
* C101 a copy of the verifier without laws on its points; each step commutes with the projections; then C05-C08 on the projections.
* C102 commitments with equal values open with equal rows on a hiding key (independence of the key elements), so the coupling of C61 also preserves the openings; hybrids of C51 as in C63.
* C103 `Model/Debug` renders values in both styles; with white space removed the text is read from left to right, element by element; the witness then follows from the recorded randomness as in C44.
* C104 a left/right game over strategy trees, played with the store of C100; a bijection of the tape of each call keeps the two worlds related (same published data, same rows for equal values), by induction over the strategy; hybrids of C51 as in C63.
* C105 the game of C104 with one call per move, against the store of C100 or against a simulator's store of commitments to zeros (the simulators of C50 for proofs, equivocation with the trapdoor for openings); a bijection of the tape of each call keeps the two stores related. When a group element is opened the simulator is told its discrete logarithm; that it could not compute it efficiently is outside the model. Pairing product equations with other targets have no simulator (C50).
* C106 a copy of the commitment functions and provers without laws on their points; each step commutes with every homomorphism that respects multiplication by scalars (images, completeness through C01-C04 and C101); closed forms of commitments and of `pi`, `theta` without laws give what the parts outside the subgroup show.
* C107 the tuple of the fields of a `CProof` as a codec built from the derived ones (round trip, truncation, validation from the lemmas for C41, C42, C59); valid points are images of points of the subgroup, so the verifier without laws of C101 is the verifier of C05-C08 on them.
* C108 reading again with a trace of the requests for memory; two relations to reading without memory (all granted and equal, or the last one refused; exactly the sizes of the vectors of the value) are kept by products, structures and vectors.
* C109 an encoding relation for each combinator (vector, product, structure), with the closure of reading, round trip and uniqueness under it; no law about writing is used for reading.
* C110 little-endian numbers with flags in the two free bits; reading of points by cases on the flags; the restriction `only` to points of the curve is lawful, reading with it is reading with the codec itself; the rest is C109.
* C111 shapes of commitments and proofs (C38) and lengths of the fields one after the other.
* C112 the identity behind completeness with the values of the proof apart from those of the commitments; the condition for acceptance
  is affine in the randomness of the commitments and not constant.
* C113 linear algebra: the left-hand side of an equation at combinations of the variables, and the closed forms of the proof elements.
* C114 the reader inverted, with the finitely many bytes of flags by evaluation; composite values by C58 and C109, after replacing codecs by equal ones.
* C115 the loops unrolled along the words; the counts by induction over the attempts, with a bijection between the words of an attempt, and the bits masked away with the number looked at; calls by C39. The modulus of the
  scalars of BLS12-381 is proved prime (Lucas) for the instances.
* C116 the tests as programs over the state of the generator, by a small calculus of what holds after each draw; the numerical ones by evaluation in an arbitrary field, the others by C01-C04, C18, C36, C39, C41 and C72.
* C117 with the calculus of C116, the exact domains of C28 and C36, and C09.
* C118 with the group law of Weierstrass curves of Mathlib; the formats by C110 and C114, the messages as in C107 and C109, the sampler by C115, the
  order of the subgroup by Cauchy's theorem.
* C119 by counting the draws of the sampler (C118) and the average over them, then C76, C104 and C105.
* C120 for the modulus by the order of a point, for the numbers of points by Jacobi sums, division in the Eisenstein integers and points computed by the kernel, for the tests by endomorphisms of the curve, for points off the curve by isomorphisms to other curves; then C114, C118, C119.
* C121 for the field by a norm argument and the order of 2, for the target group by the cyclic group of units; for bytes by C109, C114 and C120, for the verifier by C94, for attackers by C119.
* C122 for the formulas against the group law of Mathlib, by cases; for the splitting by the endomorphism of C120; for the functions by relating each operation on coordinates to the one on elements.
* C123 for bilinearity by the theory of Miller functions: lines satisfy a cocycle identity up to vertical lines, which the final exponentiation kills, and Weil's reciprocity for lines exchanges the arguments; the
  step for the twist uses that Frobenius acts on the second group as multiplication by p. The pairing of the generators is computed in the kernel, with polynomials packed into numbers, and is not 1.
* C124 by following the loop on all points of the curve of the second group: a line of the loop vanishes on no point of the first curve, and coordinates become zero exactly when a multiple of the
  point does, for a multiplier that is a prefix of the loop's; the greatest common divisors of these with the order of the curve's group are 1 or 13, and 13 for one prefix only. Panics of the pairing are a second kind of panic of the
  model, and the verifier with it refines the verifier without.
* C125 by representing the program of C60 to C63 (C122), reading the bytes (C120), and the verifier of C124. The two messages sent are functions of what is published in C63, so its bounds hold for the bytes, and
  C120 bounds the distance between a generator drawn by the sampler and a uniform one. Several equations in one program are a use of the library, not one of its functions.
* C126 by following the value of the arrays through each loop. A row of a product is exact, so a whole product gives a number `r` with `2^(64 N) r = a b + K p` for a `K` below `2^(64 N)`: this bounds all numbers on the
  way, the carries with them, and shows that one subtraction reduces the result. Squares and sums of products have other loops and the same equation. The inverse keeps `b a = u R2` and `c a = v R2` modulo the modulus, with
  `u` and `v` coprime, while `u + v` falls. The constant `INV` is computed as in the source, by squaring and multiplying; it is right because the units modulo `2^64` have an order that divides `2^63`.
* C127 level by level: a type with operations models a field if a bijection respects all of them, and this is passed from the prime field to `Fq2`, `Fq6` and `Fq12` by computing modulo `v^3 = 1 + u` and `w^2 = v`. The special square is
  that of Granger and Scott: the Frobenius map of `p^2` multiplies the coefficient of `w^i` by the `i`-th power of a sixth root of unity, so `f f^(p^4) = f^(p^2)` is six equations between the coefficients, and they
  turn the six coefficients of the square into those of the formula. Signed digits are those of the exponent, whatever it is. C126 is the instance of words; C123 and C124 then say what the pairing is.
* C128 with the formulas of ark-ec written over the operations of C127, each of which commutes with reading the words. Words are one for each element, so that what the words of a sum stand for (C122) says which words they are;
  the prover, the verifier with its panics and the programs about statements are those of `Verif/Model/Raw.lean`, `Verif/Model/RawProve.lean` and `Verif/Model/Ark.lean` at words, and C121, C124 and C125 are carried over. Scalars are field elements
  still; C129 has their words.
* C129 by making the words of scalars a field whose operations are the word programs of C126, carried over by the injection that reads words; the groups are vector spaces over it and the pairing is bilinear over it, so that all that is proved
  for any field holds at words. The bits of `Verif/Model/Bits.lean` are those of the number (`Verif/Lemmas/Bits.lean`); C121, C124 and C125 are then used at words of scalars and of points together.
* C130 by a relation between formats of two types (`Verif/Spec/CodecMaps.lean`), which passes from points and target elements to pairs, vectors, equations, CRSs and messages (`Verif/Lemmas/CodecMaps.lean`). That points are so related follows
  for any coordinates and curve that stand for those of a field (`CurveFor`); powers go bit by bit, and square roots by C120. C129 is then used for what is read. Drawn words are compared word by word with C119's.
* C131 by C125's program on words (C129), whose bytes are those of C130. Words are a field, so that C60, C12 and C63 apply to them; averages over scalars in words are those over residues, so that the CRS games and the advantages against
  SXDH are those of C125. Sending and receiving statements is not in the library: as in C125, two messages are sent, without the randomness, and the verifier is called for each equation.

## 5. Findings

Where the code does not do what a user would expect, the theorem says what it does.

* C44: serialized commitments contain their randomness, so they reveal the committed group elements and confirm guesses of scalars.
* C64: a published proof contains its randomness; together with the commitments it reveals a function of the witness, even on a hiding CRS.
  Whole proofs are not witness indistinguishable; commitments and `pi`, `theta` alone are (C13-C16).
* C49, C76: `generate_crs` does not reject zero generators; then false statements have accepted proofs (probability at most `1/|G1| + 1/|G2|`).
* C55: every MSMEG1, MSMEG2 and quadratic equation has accepted proofs on a simulated CRS, so the CRS must come from a trusted source.
* C36, C37: `verify` panics, instead of returning false, on proofs and equations whose sizes do not fit (also for a proof of the wrong type); rows of `gamma`
  after the first may be longer than the first without any error.
* C66, C67, C70: proofs are malleable: anyone can re-randomize an accepted proof and combine proofs about the same commitments.
* C71: not every accepted proof can be an output of the prover; the exception is described exactly.
* C77: the documentation writes `(u * v)^5` in the scalar field for what is `5 u v`.
* C79: a CRS whose `gt_gen` (and, for some types, `g1_gen`, `g2_gen`) does not fit the rest goes unnoticed.
* C81: the type tag of a proof does not bind it to its equation: anyone can turn a scalar proof into a proof of the corresponding group equation.
* C97: a proof does not contain its equation: one message can be accepted for every equation that an assignment satisfies. Proofs made with
  randomness are tied to their equation up to probability `2/|F|`.
* C98: two proofs made from one state of the generator (a cloned or re-seeded generator) reveal the differences of the committed values and `x · Γ(y' − y)`.
* C101: `verify` does not check that points are in the prime-order subgroup; with unchecked points it decides about their projections, and
  equations in a source group with a target outside the subgroup are accepted although no values of the subgroup satisfy them.
* C103: `Debug` of commitments and proofs prints the private randomness, so logging them reveals the witness.
* C106: committing and proving do not check points either. A PPE with one constant outside the subgroup makes the published proof reveal the
  randomness of a commitment and so the committed value, on hiding CRSs too; one in a multi-scalar equation reveals the committed scalar beside it; a CRS with such points makes all commitments binding; a committed
  value outside the subgroup is partly visible. Equations and CRSs from elsewhere must be read with `Validate::Yes`.
* C107: a receiver that deserializes with validation is sound whatever bytes come in; without validation it accepts points outside the subgroup. Forty
  zero bytes make it panic.
* C108: lengths read from the input are trusted: eight bytes make reading a commitment, CRS, proof or equation panic (in ark-serialize's `Vec`).
* C110: serialized values are malleable: ark-ec reads the identity from many strings and ignores the sign flag of uncompressed points. Bytes of
  a proof must not be used as an identifier (C58 needs canonical element codecs, which those of points are not).
* C112: `prove` does not compare the values with the commitments it is given; a mix-up is noticed by the verifier only (and not at all where the
  equation is linear in the values mixed up, since then they do not enter the proof).
* C114: on BLS12-381 serialized values have one encoding (contrast C110). As far as ark-bls12-381 checks only for the subgroup when it reads a point, the generators of a CRS
  and the targets of multi-scalar equations are not checked to be on the curve when read in uncompressed form, even with `Validate::Yes`. Calling `check` on the value, or the compressed form, helps.
  C120: such points exist. The tests for the subgroups add points without using the constant of the curve, so that `(4 x, 8 y)` passes for every `(x, y)` of the
  subgroup, and an attacker who supplies a CRS or the target of a multi-scalar equation in uncompressed form can have points of other curves accepted with `Validate::Yes`.
* **Two tests rely on a variable they do not set** (C116). `test_MSMEG2_cproof_is_commit_and_prove` and `test_quadratic_cproof_is_commit_and_prove`
  (`prover/prove.rs` 764, 880) compare the runs of two generators made by `test_rng()`, and pass only if both return the same scalars. Their siblings
  for `PPE` and `MSMEG1` (539, 654) first set `DETERMINISTIC_TEST_RNG`; these two do not. Where `test_rng()` looks at that variable
  (it is in ark-std, not in `/repo`) they depend on another test of the same process having set it before.
* **The large benchmarks exchange the numbers of constants** (C117). `bench_large_PPE_proof` and `bench_large_PPE_verify` (`benches/bench.rs` 451, 531)
  make `m` constants in `G1` and `n` in `G2` for `m` variables in `G1` and `n` in `G2`, where the equation takes `n` and `m`. They work because both are 334.
* C121: a verifier that takes the CRS from a prover in uncompressed form accepts, with `Validate::Yes`, one whose generators are off the curve. It has to call `check` as well,
  and likewise for the targets of `MSMEG1` and `MSMEG2`; for pairing product and quadratic equations, and for anything in compressed form, reading with validation is enough.
* C122: on a point outside the group (read with `Validate::No`, or from the unchecked constructor) multiplication by the same scalar gives different points with the two methods of multiplication: the default one gives the
  multiple, that with the endomorphism the multiple of a projection of the point. Outside the target group the negative in arkworks (the conjugate) is not the inverse, so a difference of equal elements is not zero.
* C123: coordinates off the curves, such as (0, 0) for both points, make the pairing of arkworks panic (`unwrap` on `None`): `verify` on a message read with `Validate::No` can panic rather than return `false`.
* C124: points of order 13 exist on the curve of the second group of BLS12-381 (its cofactor is divisible by 13^2). The pairing of arkworks panics on them. A message read with `Validate::No` that has one in
  `pi` makes `verify` panic; with `Validate::Yes` it is not read.

## 6. Axioms of each theorem

Output of `#print axioms` for the 1047 theorems in MANIFEST.json (namespace `GS`).

**no axioms** (4):
`C29_single_row`, `C40_serialize`, `C52_com_round_trip`, `C52_comT_round_trip`.

**`propext`** (11):
`C30_com_group`, `C30_com_ops`, `C30_com_sum`, `C30_com_eq`, `C30_comT_group`, `C30_comT_ops`,
`C30_comT_components`, `C30_comT_sum`, `C30_comT_eq`, `C72_equ_type`, `C126_bls`.

**`Quot.sound`, `propext`** (181):
`C10_commit_G1_binding`, `C10_commit_G2_binding`, `C19_append`, `C19_append_assoc`, `C19_append_all`,
`C27_field_neg`, `C27_com_neg`, `C28_field_neg`, `C28_com_neg`, `C29_vec_col_vec`, `C29_rect`, `C30_com_module`,
`C30_com_components`, `C31_pairing_bilinear`, `C31_pairing_matrix`, `C31_pairing_nondegenerate_left`,
`C31_pairing_nondegenerate_right`, `C31_pairing_sum`, `C31_pairing_sum_perm`, `C32_ppe`, `C32_msmeg1`,
`C32_msmeg2`, `C32_quad`, `C33_linear_map_B1`, `C33_linear_map_B2`, `C33_linear_map_PPE`, `C33_scalar_maps_hom`,
`C33_batch_maps`, `C34_generate_crs`, `C34_nonzero`, `C35_generated_dependent`, `C35_generated_binding`,
`C35_difference`, `C35_disjoint`, `C38_proofs`, `C38_rand`, `C41_com`, `C41_commit`, `C41_crs`, `C41_ppe`,
`C41_msmeg1`, `C41_msmeg2`, `C41_quad`, `C42_com`, `C42_commit`, `C42_crs`, `C42_ppe`, `C42_msmeg1`, `C42_msmeg2`,
`C42_quad`, `C43_randomness_ignored`, `C43_surplus_ignored`, `C46_opens_group_add`, `C46_opens_scalar_add`,
`C46_opens_group_smul`, `C46_opens_scalar_smul`, `C52_com_from_matrix`, `C52_comT_from_matrix`, `C58_com`,
`C58_commit`, `C58_crs`, `C58_ppe`, `C58_msmeg1`, `C58_msmeg2`, `C58_quad`, `C59_com`, `C59_commit`, `C59_crs`,
`C59_ppe`, `C59_msmeg1`, `C59_msmeg2`, `C59_quad`, `C62_no_witness`, `C65_group_opening`, `C65_scalar_opening`,
`C69_append`, `C69_commit_G1`, `C69_commit_G2`, `C69_commit_scalar_to_B1`, `C69_commit_scalar_to_B2`,
`C69_batch_commit_G1`, `C69_batch_commit_G2`, `C69_batch_commit_scalar_to_B1`, `C69_batch_commit_scalar_to_B2`,
`C78_open_iff`, `C79_commit`, `C79_prove`, `C79_verify`, `C84_crs`, `C88_commit_G1`, `C88_commit_G2`, `C88_holds`,
`C89_generated`, `C90_traced_commit`, `C90_traced_batch_commit`, `C90_traced_generate`, `C90_traced_ppe`,
`C90_traced_msmeg1`, `C90_traced_msmeg2`, `C90_traced_quad`, `C90_ppe_steps`, `C90_msmeg1_steps`,
`C90_msmeg2_steps`, `C90_quad_steps`, `C90_generate`, `C90_commit_G1`, `C90_batch_commit_G1`, `C90_commit_G2`,
`C90_batch_commit_G2`, `C90_commit_scalar_B1`, `C90_batch_commit_scalar_B1`, `C90_commit_scalar_B2`,
`C90_batch_commit_scalar_B2`, `C90_ppe_prove`, `C90_ppe_commit_and_prove`, `C90_ppe_verify`, `C90_msmeg1_prove`,
`C90_msmeg1_commit_and_prove`, `C90_msmeg1_verify`, `C90_msmeg2_prove`, `C90_msmeg2_commit_and_prove`,
`C90_msmeg2_verify`, `C90_quad_prove`, `C90_quad_commit_and_prove`, `C90_quad_verify`, `C92_commit_G1`,
`C92_commit_G2`, `C92_batch_commit_scalar_B1`, `C92_commit_scalar_B1`, `C92_batch_commit_scalar_B2`,
`C92_commit_scalar_B2`, `C101_agrees`, `C101_ppe`, `C101_msmeg1`, `C101_msmeg2`, `C101_quad`, `C101_malleable`,
`C101_false_accepted`, `C102_agreement_needed`, `C105_no_secrets`, `C105_same_answers`, `C106_commit_agrees`,
`C106_prove_agrees`, `C106_commit_image`, `C106_prove_image`, `C106_commit_and_prove_image`, `C106_crs_leaks`,
`C106_crs_leaks_second`, `C106_scalar_leaks`, `C108_com`, `C109_com`, `C109_round_com`, `C109_canonical_com`,
`C109_unique_com`, `C110_quad`, `C110_cubic`, `C110_output`, `C110_uncompressed`, `C110_unique_uncompressed`,
`C110_only_ser_commit`, `C110_only_ser_crs`, `C110_only_ser_proof`, `C110_only_ser_ppe`, `C110_only_ser_msmeg1`,
`C110_only_ser_msmeg2`, `C110_only_ser_message`, `C111_proof`, `C111_crs`, `C111_elements`, `C111_fields`,
`C114_quad`, `C114_errors`, `C114_strict`, `C114_vectors`, `C116_com`, `C122_verify`, `C122_commit`, `C122_prove`,
`C122_commit_and_prove`, `C125_program`, `C126_drawn`.

**`Classical.choice`, `Quot.sound`, `propext`** (851):
`C01_ppe_complete`, `C01_ppe_complete_generated`, `C02_msmeg1_complete`, `C02_msmeg1_complete_generated`,
`C03_msmeg2_complete`, `C03_msmeg2_complete_generated`, `C04_quad_complete`, `C04_quad_complete_generated`,
`C05_ppe_sound`, `C06_msmeg1_sound`, `C07_msmeg2_sound`, `C08_quad_sound`, `C09_ppe`, `C09_msmeg1`, `C09_msmeg2`,
`C09_quad`, `C10_batch_commit_G1_binding`, `C10_batch_commit_G2_binding`, `C11_batch_commit_scalar_B1_binding`,
`C11_commit_scalar_B1_binding`, `C11_batch_commit_scalar_B2_binding`, `C11_commit_scalar_B2_binding`,
`C12_joint_soundness`, `C13_ppe`, `C13_ppe_distribution`, `C14_msmeg1`, `C14_msmeg1_distribution`, `C15_msmeg2`,
`C15_msmeg2_distribution`, `C16_quad`, `C16_quad_distribution`, `C17_batch`, `C17_single`, `C17_openable`,
`C18_batch_G1`, `C18_batch_G2`, `C18_batch_scalar_B1`, `C18_batch_scalar_B2`, `C19_append_panics`,
`C20_history_G1`, `C20_history_G2`, `C20_history_B1`, `C20_history_B2`, `C20_history_empty`, `C20_prove_ppe`,
`C20_prove_msmeg1`, `C20_prove_msmeg2`, `C20_prove_quad`, `C21_ppe`, `C21_msmeg1`, `C21_msmeg2`, `C21_quad`,
`C21_ppe_history`, `C21_msmeg1_history`, `C21_msmeg2_history`, `C21_quad_history`, `C22_com_right_mul`,
`C22_com_left_mul`, `C22_field_right_mul`, `C22_field_left_mul`, `C22_schedule_independent`, `C23_prove`,
`C23_commit_and_prove`, `C23_verify`, `C24_rect_iff_rows`, `C24_field_right_mul`, `C24_field_left_mul`,
`C24_com_left_mul`, `C24_com_right_mul`, `C25_field_assoc`, `C25_field_field_com_assoc`,
`C25_field_com_field_assoc`, `C25_field_left_distrib`, `C25_field_right_distrib`, `C25_com_left_distrib`,
`C25_com_right_distrib`, `C25_field_transpose_mul`, `C25_com_transpose_mul`, `C25_field_neg`, `C25_com_neg`,
`C25_field_scalar_mul`, `C25_com_scalar_mul`, `C26_field_transpose`, `C26_com_transpose`, `C26_field_involution`,
`C26_com_involution`, `C26_field_panics`, `C26_com_panics`, `C27_field_add`, `C27_com_add`, `C27_field_scalar_mul`,
`C27_com_scalar_mul`, `C28_field_add`, `C28_com_add`, `C28_field_scalar_mul`, `C28_com_scalar_mul`,
`C28_field_right_mul`, `C28_field_left_mul`, `C28_com_right_mul`, `C28_com_left_mul`, `C28_empty_product`,
`C29_col_vec`, `C29_panics`, `C33_scalar_maps_injective`, `C33_scalar_maps_panic`, `C35_simulated_basis`,
`C36_ppe`, `C36_msmeg1`, `C36_msmeg2`, `C36_quad`, `C36_commit_and_prove`, `C36_no_mixed_randomness`, `C37_ppe`,
`C37_msmeg1`, `C37_msmeg2`, `C37_quad`, `C37_not_total`, `C38_commitments`, `C38_commit_and_prove`, `C39_ppe`,
`C39_msmeg1`, `C39_msmeg2`, `C39_quad`, `C39_prove`, `C40_deserialize`, `C40_deserialize_iff`, `C41_proof`,
`C42_proof`, `C43_malleable`, `C44_reveal_G1`, `C44_reveal_G2`, `C44_reveal_B1`, `C44_reveal_B2`, `C45_ppe_target`,
`C45_msmeg1_target`, `C45_msmeg2_target`, `C45_quad_target`, `C46_batch_G1_add`, `C46_batch_G2_add`,
`C46_batch_B1_add`, `C46_batch_B2_add`, `C46_batch_smul`, `C47_no_cross_type`, `C48_batch_empty`, `C48_prove`,
`C49_zero_generator_accepts_false`, `C49_zero_g2_accepts_any_msmeg1`, `C49_zero_g1_accepts_any_msmeg2`,
`C49_sound_iff_nonzero`, `C49_scalar_binding_B1_iff`, `C49_scalar_binding_B2_iff`, `C49_not_every_crs_sound`,
`C50_msmeg1`, `C50_msmeg1_distribution`, `C50_msmeg2`, `C50_msmeg2_distribution`, `C50_quad`,
`C50_quad_distribution`, `C50_ppe_zero_target`, `C51_crs_indistinguishable`, `C51_reductions`,
`C51_not_statistical`, `C52_com_panics`, `C52_comT_panics`, `C53_ppe`, `C53_msmeg1`, `C53_msmeg2`, `C53_quad`,
`C54_ppe`, `C54_msmeg1`, `C54_msmeg2`, `C54_quad`, `C54_msmeg1_published`, `C54_msmeg2_published`,
`C54_quad_published`, `C55_msmeg1`, `C55_msmeg2`, `C55_quad`, `C56_ppe`, `C56_msmeg1`, `C56_msmeg2`, `C56_quad`,
`C57_msmeg1`, `C57_msmeg2`, `C57_quad`, `C58_proof`, `C59_proof`, `C60_statement`, `C61_statement`,
`C61_distribution`, `C62_statement`, `C62_distribution`, `C63_indistinguishable`, `C63_zero_knowledge`,
`C64_ppe_formula`, `C64_ppe_exact`, `C64_msmeg1_formula`, `C64_msmeg1_exact`, `C64_msmeg2_formula`,
`C64_msmeg2_exact`, `C64_quad_formula`, `C64_quad_exact`, `C65_ppe`, `C65_msmeg1`, `C65_msmeg2`, `C65_quad`,
`C65_msmeg1_lifted`, `C65_msmeg2_lifted`, `C65_quad_lifted`, `C66_ppe_accept`, `C66_msmeg1_accept`,
`C66_msmeg2_accept`, `C66_quad_accept`, `C66_ppe_unlinkable`, `C66_msmeg1_unlinkable`, `C66_msmeg2_unlinkable`,
`C66_quad_unlinkable`, `C66_ppe_hiding`, `C66_msmeg1_hiding`, `C66_msmeg2_hiding`, `C66_quad_hiding`, `C67_ppe`,
`C67_msmeg1`, `C67_msmeg2`, `C67_quad`, `C68_com_right_mul`, `C68_com_left_mul`, `C68_field_right_mul`,
`C68_field_left_mul`, `C69_ppe_prove`, `C69_ppe_commit_and_prove`, `C69_msmeg1_prove`,
`C69_msmeg1_commit_and_prove`, `C69_msmeg2_prove`, `C69_msmeg2_commit_and_prove`, `C69_quad_prove`,
`C69_quad_commit_and_prove`, `C70_ppe`, `C70_msmeg1`, `C70_msmeg2`, `C70_quad`, `C71_ppe`, `C71_msmeg1`,
`C71_msmeg2`, `C71_quad`, `C71_unpublished`, `C71_quad_every`, `C72_vec`, `C72_coms`, `C72_matrix`, `C72_commit`,
`C72_equ_proof`, `C72_cproof`, `C72_ppe`, `C72_msmeg1`, `C72_msmeg2`, `C72_quad`, `C72_private`, `C73_ppe_verify`,
`C73_msmeg1_verify`, `C73_msmeg2_verify`, `C73_quad_verify`, `C73_ppe_prove`, `C73_msmeg1_prove`,
`C73_msmeg2_prove`, `C73_quad_prove`, `C74_ppe_x`, `C74_ppe_y`, `C74_msmeg1_x`, `C74_msmeg1_y`, `C74_msmeg2_x`,
`C74_msmeg2_y`, `C74_quad_x`, `C74_quad_y`, `C75_ppe_x`, `C75_ppe_y`, `C75_msmeg1_x`, `C75_msmeg1_y`,
`C75_msmeg2_x`, `C75_msmeg2_y`, `C75_quad_x`, `C75_quad_y`, `C76_sound_probability`, `C76_adaptive_soundness`,
`C76_tight`, `C77_ppe`, `C77_msmeg1`, `C77_msmeg2`, `C77_quad`, `C77_quad_not_power`, `C78_commit_B1`,
`C78_commit_B2`, `C78_prove`, `C78_joint_soundness`, `C79_msmeg1_other_gen`, `C79_msmeg2_other_gen`,
`C79_quad_other_g2`, `C79_quad_other_g1`, `C80_ppe_proof`, `C80_ppe_commitment`, `C80_ppe_equation`,
`C80_msmeg1_proof`, `C80_msmeg1_commitment`, `C80_msmeg1_equation`, `C80_msmeg2_proof`, `C80_msmeg2_commitment`,
`C80_msmeg2_equation`, `C80_quad_proof`, `C80_quad_commitment`, `C80_quad_equation`, `C80_generated`, `C81_holds`,
`C81_msmeg1_ppe`, `C81_msmeg2_ppe`, `C81_quad_msmeg1`, `C81_quad_msmeg2`, `C82_equType`, `C82_com`, `C82_commit`,
`C82_crs`, `C82_proof`, `C82_ppe`, `C82_msmeg1`, `C82_msmeg2`, `C82_quad`, `C82_equType_back`, `C82_com_back`,
`C82_commit_back`, `C82_crs_back`, `C82_proof_back`, `C82_ppe_back`, `C82_msmeg1_back`, `C82_msmeg2_back`,
`C82_quad_back`, `C83_calls`, `C83_ppe_prove`, `C83_ppe_commit_and_prove`, `C83_msmeg1_prove`,
`C83_msmeg1_commit_and_prove`, `C83_msmeg2_prove`, `C83_msmeg2_commit_and_prove`, `C83_quad_prove`,
`C83_quad_commit_and_prove`, `C83_ppe_verify`, `C83_msmeg1_verify`, `C83_msmeg2_verify`, `C83_quad_verify`,
`C84_ppe_verify`, `C84_msmeg1_verify`, `C84_msmeg2_verify`, `C84_quad_verify`, `C84_ppe_prove`,
`C84_ppe_commit_and_prove`, `C84_msmeg1_prove`, `C84_msmeg1_commit_and_prove`, `C84_msmeg2_prove`,
`C84_msmeg2_commit_and_prove`, `C84_quad_prove`, `C84_quad_commit_and_prove`, `C84_holds`, `C85_G1`, `C85_B1`,
`C85_G2`, `C85_B2`, `C86_commit_G1`, `C86_commit_B1`, `C86_commit_G2`, `C86_commit_B2`, `C86_ppe_prove`,
`C86_ppe_prove_count`, `C86_ppe_commit_and_prove`, `C86_msmeg1_prove`, `C86_msmeg1_prove_count`,
`C86_msmeg1_commit_and_prove`, `C86_msmeg2_prove`, `C86_msmeg2_prove_count`, `C86_msmeg2_commit_and_prove`,
`C86_quad_prove`, `C86_quad_prove_count`, `C86_quad_commit_and_prove`, `C87_ppe`, `C87_msmeg1`, `C87_msmeg2`,
`C87_quad`, `C87_ppe_zero`, `C88_generate`, `C88_commit_scalar_B1`, `C88_batch_commit_G1`,
`C88_batch_commit_scalar_B1`, `C88_commit_scalar_B2`, `C88_batch_commit_G2`, `C88_batch_commit_scalar_B2`,
`C88_ppe_prove`, `C88_msmeg1_prove`, `C88_msmeg2_prove`, `C88_quad_prove`, `C88_ppe_commit_and_prove`,
`C88_msmeg1_commit_and_prove`, `C88_msmeg2_commit_and_prove`, `C88_quad_commit_and_prove`, `C88_ppe_verify`,
`C88_msmeg1_verify`, `C88_msmeg2_verify`, `C88_quad_verify`, `C89_batch_G1`, `C89_batch_G2`, `C89_batch_scalar_B1`,
`C89_batch_scalar_B2`, `C89_nothing_else_G1`, `C89_nothing_else_G2`, `C89_nothing_else_scalar_B1`,
`C89_nothing_else_scalar_B2`, `C91_ppe_bound`, `C91_ppe_exact`, `C91_msmeg1_bound`, `C91_msmeg1_exact`,
`C91_msmeg2_bound`, `C91_msmeg2_exact`, `C91_quad_bound`, `C91_quad_exact`, `C92_batch_commit_G1`,
`C92_batch_commit_G2`, `C92_ppe_prove`, `C92_ppe_commit_and_prove`, `C92_msmeg1_prove`,
`C92_msmeg1_commit_and_prove`, `C92_msmeg2_prove`, `C92_msmeg2_commit_and_prove`, `C92_quad_prove`,
`C92_quad_commit_and_prove`, `C93_group_criterion`, `C93_scalar_criterion`, `C93_group_binding_binds_scalars`,
`C93_intermediate_key`, `C93_G1_binding`, `C93_G1_equivocal`, `C93_G1_either`, `C93_G2_binding`,
`C93_G2_equivocal`, `C93_G2_either`, `C93_scalar_B1_binding`, `C93_scalar_B1_equivocal`, `C93_scalar_B1_either`,
`C93_scalar_B2_binding`, `C93_scalar_B2_equivocal`, `C93_scalar_B2_either`, `C94_ppe_extract`, `C94_ppe`,
`C94_msmeg1_extract`, `C94_msmeg1`, `C94_msmeg2_extract`, `C94_msmeg2`, `C94_quad_extract`, `C94_quad`, `C95_ppe`,
`C95_msmeg1`, `C95_msmeg2`, `C95_quad`, `C96_ppe_left`, `C96_ppe_right`, `C96_msmeg1_left`, `C96_msmeg1_right`,
`C96_msmeg2_left`, `C96_msmeg2_right`, `C96_quad_left`, `C96_quad_right`, `C97_ppe`, `C97_msmeg1`, `C97_msmeg2`,
`C97_quad`, `C97_ppe_generated`, `C97_msmeg1_generated`, `C97_msmeg2_generated`, `C97_quad_generated`,
`C97_ppe_common`, `C97_msmeg1_common`, `C97_msmeg2_common`, `C97_quad_common`, `C98_ppe_formula`, `C98_ppe_same`,
`C98_ppe_exact`, `C98_msmeg1_formula`, `C98_msmeg1_same`, `C98_msmeg1_exact`, `C98_msmeg2_formula`,
`C98_msmeg2_same`, `C98_msmeg2_exact`, `C98_quad_formula`, `C98_quad_same`, `C98_quad_exact`, `C99_ppe_game`,
`C99_ppe`, `C99_ppe_generated`, `C99_msmeg1_game`, `C99_msmeg1`, `C99_msmeg1_generated`, `C99_msmeg2_game`,
`C99_msmeg2`, `C99_msmeg2_generated`, `C99_quad_game`, `C99_quad`, `C99_quad_generated`, `C99_commit_G1`,
`C99_commit_G2`, `C99_commit_B1`, `C99_commit_B2`, `C100_ledger`, `C100_last`, `C100_sound`, `C100_complete`,
`C101_sound`, `C102_statement`, `C102_distribution`, `C102_checkable`, `C102_indistinguishable`, `C103_commits`,
`C103_proofs`, `C103_statements`, `C103_elements`, `C103_reveal_G1`, `C103_reveal_G2`, `C103_reveal_B1`,
`C103_reveal_B2`, `C103_witness_ppe`, `C103_witness_msmeg1`, `C103_witness_msmeg2`, `C103_witness_quad`,
`C104_perfect`, `C104_indistinguishable`, `C104_assumption_needed`, `C104_tape`, `C105_perfect`,
`C105_indistinguishable`, `C106_complete`, `C106_value_leaks`, `C106_equation_leaks`, `C106_secret_leaks`,
`C106_projections`, `C106_scalar_equation_leaks`, `C106_scalar_secret_leaks`, `C106_scalar_secret_leaks_second`,
`C106_secret_leaks_second`, `C107_inside`, `C107_receive`, `C107_sound`, `C107_sent`, `C107_honest`, `C107_bytes`,
`C107_panic`, `C107_unvalidated`, `C108_commit`, `C108_crs`, `C108_proof`, `C108_ppe`, `C108_msmeg1`,
`C108_msmeg2`, `C108_quad`, `C108_eight_bytes_stop`, `C109_message`, `C109_round_message`, `C109_unique_message`,
`C109_commit`, `C109_crs`, `C109_proof`, `C109_ppe`, `C109_msmeg1`, `C109_msmeg2`, `C109_quad`,
`C109_round_commit`, `C109_round_crs`, `C109_round_proof`, `C109_round_ppe`, `C109_round_msmeg1`,
`C109_round_msmeg2`, `C109_round_quad`, `C109_canonical_commit`, `C109_canonical_crs`, `C109_canonical_proof`,
`C109_canonical_ppe`, `C109_canonical_msmeg1`, `C109_canonical_msmeg2`, `C109_canonical_quad`,
`C109_unique_commit`, `C109_unique_crs`, `C109_unique_proof`, `C109_unique_ppe`, `C109_unique_msmeg1`,
`C109_unique_msmeg2`, `C109_unique_quad`, `C110_fp`, `C110_compressed`, `C110_points`, `C110_unique_compressed`,
`C110_not_canonical`, `C110_proof_compressed`, `C110_proof_uncompressed`, `C110_only`, `C110_only_commit`,
`C110_only_crs`, `C110_only_proof`, `C110_only_ppe`, `C110_only_msmeg1`, `C110_only_msmeg2`, `C110_only_message`,
`C110_message_compressed`, `C110_message_uncompressed`, `C110_receive`, `C111_commit`, `C111_message`, `C112_ppe`,
`C112_ppe_same`, `C112_ppe_chance`, `C112_ppe_generated`, `C112_msmeg1`, `C112_msmeg1_same`, `C112_msmeg1_chance`,
`C112_msmeg1_generated`, `C112_msmeg2`, `C112_msmeg2_same`, `C112_msmeg2_chance`, `C112_msmeg2_generated`,
`C112_quad`, `C112_quad_same`, `C112_quad_chance`, `C112_quad_generated`, `C113_opens_group`, `C113_opens_scalar`,
`C113_ppe_holds`, `C113_ppe_verify`, `C113_ppe_prove`, `C113_ppe`, `C113_msmeg1_holds`, `C113_msmeg1_verify`,
`C113_msmeg1_prove`, `C113_msmeg1`, `C113_msmeg2_holds`, `C113_msmeg2_verify`, `C113_msmeg2_prove`, `C113_msmeg2`,
`C113_quad_holds`, `C113_quad_verify`, `C113_quad_prove`, `C113_quad`, `C114_fp`, `C114_compressed`,
`C114_uncompressed`, `C114_points`, `C114_unique_compressed`, `C114_unique_uncompressed`, `C114_canonical`,
`C114_only`, `C114_compressed_strict`, `C114_canonical_composite`, `C114_compressed_composite`, `C114_crs`,
`C114_msmeg1`, `C114_msmeg2`, `C114_proof`, `C114_commit`, `C114_ppe`, `C114_offcurve_crs`, `C115_scalar`,
`C115_never`, `C115_in_turn`, `C115_quad`, `C115_uniform`, `C115_fail`, `C115_fail_many`, `C115_views`,
`C115_same_words_ppe`, `C115_same_words_msmeg1`, `C115_same_words_msmeg2`, `C115_same_words_quad`, `C115_points`,
`C115_generator`, `C115_generator_zero`, `C116_matrix`, `C116_maps`, `C116_key`, `C116_serde`, `C116_types`,
`C116_verifies`, `C116_same_state`, `C116_two_states`, `C117_small`, `C117_large`, `C117_large_ppe`,
`C118_scalars`, `C118_ark`, `C118_bls`, `C118_order`, `C118_generator`, `C118_prime`, `C118_read`, `C118_sound`,
`C118_honest`, `C119_distance`, `C119_returns`, `C119_sound`, `C119_adaptive_soundness`, `C119_indistinguishable`,
`C119_zero_knowledge`, `C120_points`, `C120_tests`, `C120_lawful`, `C120_sqrt`, `C120_clears`, `C120_attempts`,
`C120_read`, `C120_sound`, `C120_honest`, `C120_sound_crs`, `C120_distance`, `C120_adaptive_soundness`,
`C120_indistinguishable`, `C120_zero_knowledge`, `C120_scaled`, `C120_off_curve`, `C121_crs`, `C121_equation`,
`C121_same`, `C121_sound`, `C121_any`, `C121_binding`, `C121_honest`, `C121_field`, `C121_target`, `C121_gt`,
`C121_bls_crs`, `C121_bls_equation`, `C121_bls_sound`, `C121_bls_any`, `C121_bls_honest`,
`C121_bls_adaptive_soundness`, `C121_bls_off_curve`, `C122_coordinates`, `C122_formulas`, `C122_multiplication`,
`C122_sums`, `C122_split`, `C122_glv`, `C122_glv_outside`, `C122_glv_projects`, `C122_tests`, `C122_target`,
`C122_target_outside`, `C122_methods`, `C122_bls_carries`, `C122_bls_verify`, `C122_bls_crs`, `C122_bls_generate`,
`C122_bls_sampled`, `C122_bls_sound`, `C122_bls_any`, `C122_bls_honest`, `C123_final_exponentiation`,
`C123_multi_pairing`, `C123_off_curve_panics`, `C123_pairing`, `C123_bls_multi_pairing`, `C123_bls_pairs`,
`C123_bls_prime`, `C123_bls_verify`, `C123_bls_generate`, `C123_bls_sound`, `C123_bls_any`, `C123_bls_honest`,
`C123_bls_adaptive_soundness`, `C124_pairing_panics`, `C124_multi_pairing_panics`, `C124_order_13`,
`C124_verify_or_panic`, `C124_bls_verify`, `C124_bls_generate`, `C124_bls_sound`, `C124_bls_any`,
`C124_bls_honest`, `C124_bls_adaptive_soundness`, `C124_message_panics`, `C125_bls_honest`, `C125_bls_sound`,
`C125_bls_adaptive_soundness`, `C125_bls_indistinguishable`, `C125_bls_zero_knowledge`, `C126_unique`, `C126_add`,
`C126_mul`, `C126_square`, `C126_inverse`, `C126_sum_of_products`, `C126_numbers`, `C126_bytes`,
`C126_bls_scalars`, `C127_words`, `C127_fields`, `C127_sparse`, `C127_frobenius`, `C127_tables`, `C127_cyclotomic`,
`C127_final_exponentiation`, `C127_multi_pairing`, `C127_bls`, `C127_all_points`, `C127_panics`,
`C128_into_affine`, `C128_formulas`, `C128_multiplication`, `C128_sums`, `C128_glv`, `C128_tests`,
`C128_bls_carries`, `C128_target`, `C128_bls_verify`, `C128_read`, `C128_bls_sound`, `C128_bls_prove`,
`C128_bls_honest`, `C128_bls_generate`, `C128_bls_received`, `C129_field`, `C129_bits`, `C129_carries`,
`C129_verify`, `C129_prime`, `C129_prove`, `C129_honest`, `C129_same_crs`, `C129_generate`, `C129_codec`,
`C129_sound`, `C129_received`, `C130_pow`, `C130_sqrt`, `C130_sqrt2`, `C130_points`, `C130_target`, `C130_receive`,
`C130_ser`, `C130_sound`, `C130_received`, `C130_draws`, `C130_drawn`, `C130_generate`, `C130_generated`,
`C131_sent`, `C131_honest`, `C131_sound`, `C131_adaptive_soundness`, `C131_games`, `C131_indistinguishable`,
`C131_zero_knowledge`.
