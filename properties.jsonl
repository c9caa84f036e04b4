{"id": "C01", "title": "Completeness of PPE proofs", "statement": "If x (m elements of G1) and y (n elements of G2) satisfy a PPE equation whose constants and Γ have matching dimensions (m,n >= 1), then commit_and_prove returns a proof without panicking and verify on that proof, equation and CRS returns true. This holds for any CRS with two-element keys u and v, so in particular for every output of generate_crs.", "quantifier": "all m,n >= 1, all equations, all satisfying witnesses, all CRS with |u|=|v|=2, all RNGs and RNG states, all thread schedules of the parallel multiplications", "why_tests_cant": "Field and group elements range over sets of size about 2^255 and the dimensions are unbounded; the tests run one 2x1 equation with one random seed.", "anchors": ["src/prover/prove.rs: Provable for PPE", "src/verifier.rs: Verifiable for PPE", "src/prover/commit.rs: batch_commit_*", "src/statement.rs: PPE"]}
{"id": "C02", "title": "Completeness of MSMEG1 proofs", "statement": "If x (m elements of G1) and y (n elements of Fr) satisfy a MSMEG1 equation whose constants and Γ have matching dimensions (m,n >= 1), then commit_and_prove returns a proof without panicking and verify on that proof, equation and CRS returns true. This holds for any CRS with two-element keys u and v, so in particular for every output of generate_crs.", "quantifier": "all m,n >= 1, all equations, all satisfying witnesses, all CRS with |u|=|v|=2, all RNGs and RNG states, all thread schedules of the parallel multiplications", "why_tests_cant": "Field and group elements range over sets of size about 2^255 and the dimensions are unbounded; the tests run one 2x1 equation with one random seed.", "anchors": ["src/prover/prove.rs: Provable for MSMEG1", "src/verifier.rs: Verifiable for MSMEG1", "src/prover/commit.rs: batch_commit_*", "src/statement.rs: MSMEG1"]}
{"id": "C03", "title": "Completeness of MSMEG2 proofs", "statement": "If x (m elements of Fr) and y (n elements of G2) satisfy a MSMEG2 equation whose constants and Γ have matching dimensions (m,n >= 1), then commit_and_prove returns a proof without panicking and verify on that proof, equation and CRS returns true. This holds for any CRS with two-element keys u and v, so in particular for every output of generate_crs.", "quantifier": "all m,n >= 1, all equations, all satisfying witnesses, all CRS with |u|=|v|=2, all RNGs and RNG states, all thread schedules of the parallel multiplications", "why_tests_cant": "Field and group elements range over sets of size about 2^255 and the dimensions are unbounded; the tests run one 2x1 equation with one random seed.", "anchors": ["src/prover/prove.rs: Provable for MSMEG2", "src/verifier.rs: Verifiable for MSMEG2", "src/prover/commit.rs: batch_commit_*", "src/statement.rs: MSMEG2"]}
{"id": "C04", "title": "Completeness of QuadEqu proofs", "statement": "If x (m elements of Fr) and y (n elements of Fr) satisfy a QuadEqu equation whose constants and Γ have matching dimensions (m,n >= 1), then commit_and_prove returns a proof without panicking and verify on that proof, equation and CRS returns true. This holds for any CRS with two-element keys u and v, so in particular for every output of generate_crs.", "quantifier": "all m,n >= 1, all equations, all satisfying witnesses, all CRS with |u|=|v|=2, all RNGs and RNG states, all thread schedules of the parallel multiplications", "why_tests_cant": "Field and group elements range over sets of size about 2^255 and the dimensions are unbounded; the tests run one 2x1 equation with one random seed.", "anchors": ["src/prover/prove.rs: Provable for QuadEqu", "src/verifier.rs: Verifiable for QuadEqu", "src/prover/commit.rs: batch_commit_*", "src/statement.rs: QuadEqu"]}
{"id": "C05", "title": "Perfect soundness of PPE proofs", "statement": "Under any CRS produced by generate_crs whose generators are nonzero, if verify returns true for a PPE equation and any CProof whatsoever (however it was made), then the commitments in the CProof open to exactly one vector x in G1 and one vector y in G2, and these satisfy the equation.", "quantifier": "all equations, all CProof values (honest or adversarial, any lengths), all CRS outputs of generate_crs with nonzero generators, all schedules", "why_tests_cant": "It says something about every accepted proof, including adversarial ones; a test can only try particular forgeries.", "anchors": ["src/verifier.rs: Verifiable for PPE", "src/generator.rs: generate_crs, prepare_real_binding_key", "src/data_structures.rs: BT::pairing_sum, linear maps"]}
{"id": "C06", "title": "Perfect soundness of MSMEG1 proofs", "statement": "Under any CRS produced by generate_crs whose generators are nonzero, if verify returns true for a MSMEG1 equation and any CProof whatsoever (however it was made), then the commitments in the CProof open to exactly one vector x in G1 and one vector y in Fr, and these satisfy the equation.", "quantifier": "all equations, all CProof values (honest or adversarial, any lengths), all CRS outputs of generate_crs with nonzero generators, all schedules", "why_tests_cant": "It says something about every accepted proof, including adversarial ones; a test can only try particular forgeries.", "anchors": ["src/verifier.rs: Verifiable for MSMEG1", "src/generator.rs: generate_crs, prepare_real_binding_key", "src/data_structures.rs: BT::pairing_sum, linear maps"]}
{"id": "C07", "title": "Perfect soundness of MSMEG2 proofs", "statement": "Under any CRS produced by generate_crs whose generators are nonzero, if verify returns true for a MSMEG2 equation and any CProof whatsoever (however it was made), then the commitments in the CProof open to exactly one vector x in Fr and one vector y in G2, and these satisfy the equation.", "quantifier": "all equations, all CProof values (honest or adversarial, any lengths), all CRS outputs of generate_crs with nonzero generators, all schedules", "why_tests_cant": "It says something about every accepted proof, including adversarial ones; a test can only try particular forgeries.", "anchors": ["src/verifier.rs: Verifiable for MSMEG2", "src/generator.rs: generate_crs, prepare_real_binding_key", "src/data_structures.rs: BT::pairing_sum, linear maps"]}
{"id": "C08", "title": "Perfect soundness of QuadEqu proofs", "statement": "Under any CRS produced by generate_crs whose generators are nonzero, if verify returns true for a QuadEqu equation and any CProof whatsoever (however it was made), then the commitments in the CProof open to exactly one vector x in Fr and one vector y in Fr, and these satisfy the equation.", "quantifier": "all equations, all CProof values (honest or adversarial, any lengths), all CRS outputs of generate_crs with nonzero generators, all schedules", "why_tests_cant": "It says something about every accepted proof, including adversarial ones; a test can only try particular forgeries.", "anchors": ["src/verifier.rs: Verifiable for QuadEqu", "src/generator.rs: generate_crs, prepare_real_binding_key", "src/data_structures.rs: BT::pairing_sum, linear maps"]}
{"id": "C09", "title": "Honest proofs of false statements are rejected", "statement": "For well-dimensioned inputs, verify applied to the output of commit_and_prove returns true if and only if the witness given to commit_and_prove satisfies the equation; otherwise it returns false (it does not panic). For the equation types involving scalars this needs the CRS to come from generate_crs with nonzero generators.", "quantifier": "all four equation types, all equations, all witnesses satisfying or not, all RNG states, all schedules", "why_tests_cant": "No test in the repository exercises the rejecting branch; the claim ranges over all non-witnesses.", "anchors": ["src/verifier.rs: verify", "src/prover/prove.rs: commit_and_prove"]}
{"id": "C10", "title": "Group commitments are perfectly binding", "statement": "Under any CRS from generate_crs with nonzero generator, if two calls to commit_G1 / batch_commit_G1 (resp. commit_G2 / batch_commit_G2) on values x and x' with any randomness give equal commitment values, then x = x'.", "quantifier": "all CRS outputs of generate_crs with nonzero generators, all value vectors, all randomness", "why_tests_cant": "A collision search over a 255-bit group cannot be exhausted by tests.", "anchors": ["src/prover/commit.rs: commit_G1, batch_commit_G1, commit_G2, batch_commit_G2", "src/generator.rs: generate_crs"]}
{"id": "C11", "title": "Scalar commitments are perfectly binding", "statement": "Under any CRS from generate_crs with nonzero generator, if two calls to commit_scalar_to_B1 / batch_commit_scalar_to_B1 (resp. B2) on scalars x and x' with any randomness give equal commitment values, then x = x' and the randomness is equal too.", "quantifier": "all CRS outputs of generate_crs with nonzero generators, all scalar vectors, all randomness", "why_tests_cant": "A collision search over a 255-bit field cannot be exhausted by tests.", "anchors": ["src/prover/commit.rs: commit_scalar_to_B1, batch_commit_scalar_to_B1, commit_scalar_to_B2, batch_commit_scalar_to_B2", "src/generator.rs: generate_crs"]}
{"id": "C12", "title": "Joint soundness over shared commitments", "statement": "If several equations of any of the four types all verify, under one generated CRS with nonzero generators, against CProofs that share commitment lists, then there is one single assignment to the committed variables that satisfies all the equations at once.", "quantifier": "all finite lists of equations of mixed types, all CProofs sharing commitment lists", "why_tests_cant": "Consistency across equations is a statement about all accepted families of proofs.", "anchors": ["src/verifier.rs: verify", "src/statement.rs: module documentation on variables spanning all equations"]}
{"id": "C13", "title": "Perfect witness-indistinguishability of PPE proofs on a hiding CRS", "statement": "With a CRS built from prepare_simulated_hinding_key and nonzero generators, for any two witnesses of the same size that both satisfy a PPE equation, there is a bijection on the random draws of commit_and_prove under which the two runs publish identical commitments and identical pi and theta; so the published values have the same distribution for both witnesses.", "quantifier": "all equations, all pairs of satisfying witnesses, all random tapes", "why_tests_cant": "Equality of two distributions over 2^(255k) tapes cannot be tested.", "anchors": ["src/prover/prove.rs: Provable for PPE", "src/generator.rs: prepare_simulated_hinding_key", "src/prover/commit.rs: batch_commit_*"]}
{"id": "C14", "title": "Perfect witness-indistinguishability of MSMEG1 proofs on a hiding CRS", "statement": "With a CRS built from prepare_simulated_hinding_key and nonzero generators, for any two witnesses of the same size that both satisfy a MSMEG1 equation, there is a bijection on the random draws of commit_and_prove under which the two runs publish identical commitments and identical pi and theta; so the published values have the same distribution for both witnesses.", "quantifier": "all equations, all pairs of satisfying witnesses, all random tapes", "why_tests_cant": "Equality of two distributions over 2^(255k) tapes cannot be tested.", "anchors": ["src/prover/prove.rs: Provable for MSMEG1", "src/generator.rs: prepare_simulated_hinding_key", "src/prover/commit.rs: batch_commit_*"]}
{"id": "C15", "title": "Perfect witness-indistinguishability of MSMEG2 proofs on a hiding CRS", "statement": "With a CRS built from prepare_simulated_hinding_key and nonzero generators, for any two witnesses of the same size that both satisfy a MSMEG2 equation, there is a bijection on the random draws of commit_and_prove under which the two runs publish identical commitments and identical pi and theta; so the published values have the same distribution for both witnesses.", "quantifier": "all equations, all pairs of satisfying witnesses, all random tapes", "why_tests_cant": "Equality of two distributions over 2^(255k) tapes cannot be tested.", "anchors": ["src/prover/prove.rs: Provable for MSMEG2", "src/generator.rs: prepare_simulated_hinding_key", "src/prover/commit.rs: batch_commit_*"]}
{"id": "C16", "title": "Perfect witness-indistinguishability of QuadEqu proofs on a hiding CRS", "statement": "With a CRS built from prepare_simulated_hinding_key and nonzero generators, for any two witnesses of the same size that both satisfy a QuadEqu equation, there is a bijection on the random draws of commit_and_prove under which the two runs publish identical commitments and identical pi and theta; so the published values have the same distribution for both witnesses.", "quantifier": "all equations, all pairs of satisfying witnesses, all random tapes", "why_tests_cant": "Equality of two distributions over 2^(255k) tapes cannot be tested.", "anchors": ["src/prover/prove.rs: Provable for QuadEqu", "src/generator.rs: prepare_simulated_hinding_key", "src/prover/commit.rs: batch_commit_*"]}
{"id": "C17", "title": "Commitments are perfectly hiding on a hiding CRS", "statement": "With a CRS built from prepare_simulated_hinding_key and nonzero generators, for any two values there is a bijection of the random draws under which commit_G1, commit_G2, commit_scalar_to_B1 and commit_scalar_to_B2 return the same commitment value; moreover every commitment produced for one value can be opened to any other.", "quantifier": "all values, all randomness, all four commitment functions", "why_tests_cant": "Equality of distributions is not testable.", "anchors": ["src/prover/commit.rs: commit_G1, commit_G2, commit_scalar_to_B1, commit_scalar_to_B2", "src/generator.rs: prepare_simulated_hinding_key"]}
{"id": "C18", "title": "Batch commitment equals the sequence of single commitments", "statement": "Batch-committing a nonempty list gives exactly the commitment obtained by committing its elements one by one in order with the same RNG and appending the results, and leaves the RNG in the same state; for all four value/side combinations.", "quantifier": "all nonempty lists, all two-element keys, all RNGs and states", "why_tests_cant": "Tests check three fixed elements with one seed.", "anchors": ["src/prover/commit.rs: batch_commit_G1 and commit_G1 (and G2, scalar variants), Commit::append"]}
{"id": "C19", "title": "append concatenates and empties its argument", "statement": "append on two commitments with as many randomness rows as values leaves self holding both lists in order, leaves other empty, never loses or duplicates a pair (value, randomness row), and panics without a result exactly when either argument has mismatched lengths; appends are associative.", "quantifier": "all commitments, all sequences of appends", "why_tests_cant": "Quantifies over all lengths and all histories of appends.", "anchors": ["src/prover/commit.rs: impl_com! append"]}
{"id": "C20", "title": "Any commit/append history can be proved about", "statement": "Any commitment obtained by an arbitrary sequence of single commits, batch commits and appends of one kind (group or scalar) opens to the concatenation of the committed values in order, and prove on it with a satisfying witness gives a proof that verify accepts.", "quantifier": "all histories of commit operations, all equations and satisfying witnesses", "why_tests_cant": "Histories are unbounded.", "anchors": ["src/prover/commit.rs: Commit::append, commit_*, batch_commit_*", "src/prover/prove.rs: prove", "src/verifier.rs: verify"]}
{"id": "C21", "title": "Several equations over the same commitments all verify", "statement": "Calling prove for each of a list of satisfied equations (of types agreeing with the commitments) with the same commitments and a running RNG gives one proof per equation, and each CProof made of the shared commitments and one of these proofs verifies.", "quantifier": "all finite lists of equations, all RNGs, all schedules", "why_tests_cant": "Tests only ever prove one equation at a time.", "anchors": ["src/prover/prove.rs: prove, CProof", "src/verifier.rs: verify"]}
{"id": "C22", "title": "Parallel and sequential matrix products agree for every schedule", "statement": "left_mul and right_mul (field and commitment-group matrices) called with is_parallel = true return the same matrix as with is_parallel = false whatever order the thread pool runs the entry computations in, and one panics if and only if the other does.", "quantifier": "all matrices including ragged and empty ones, all orders of execution of the tasks", "why_tests_cant": "Thread schedules cannot be enumerated by tests; the repository checks fixed matrices only.", "anchors": ["src/data_structures.rs: Mat::left_mul, Mat::right_mul (impl_base_commit_mats! and Field)"]}
{"id": "C23", "title": "Proving and verifying are deterministic in the schedule", "statement": "For a fixed RNG state, the result of prove, commit_and_prove and verify does not depend on how the thread pool schedules the internal parallel multiplications: they return the same value, or panic, under every schedule.", "quantifier": "all inputs including malformed ones, all pairs of schedules", "why_tests_cant": "Thread schedules cannot be enumerated by tests.", "anchors": ["src/prover/prove.rs: prove, commit_and_prove", "src/verifier.rs: verify"]}
{"id": "C24", "title": "Matrix products compute the mathematical product", "statement": "On rectangular matrices with positive compatible dimensions, a.right_mul(b) and b.left_mul(a) both return the m x n matrix whose (i,j) entry is the sum over k of a[i][k] b[k][j], for field matrices and for scalar-times-commitment matrices.", "quantifier": "all dimensions m,k,n >= 1, all entries", "why_tests_cant": "Unbounded dimensions and huge element domain.", "anchors": ["src/data_structures.rs: Mat::left_mul, Mat::right_mul"]}
{"id": "C25", "title": "Matrix algebra laws", "statement": "On compatible rectangular nonempty matrices the operations satisfy the laws the prover relies on: products associate (field-field-field and field-field-commitment), distribute over add, transpose reverses field products, neg is the additive inverse, scalar_mul commutes with products.", "quantifier": "all dimensions >= 1, all entries", "why_tests_cant": "Laws over unbounded dimensions.", "anchors": ["src/data_structures.rs: trait Mat and its implementations"]}
{"id": "C26", "title": "transpose swaps indices and is an involution", "statement": "On an m x n rectangular matrix with m,n >= 1, transpose returns the n x m matrix with entry (j,i) equal to the original (i,j), and transposing twice returns the original; it panics exactly when the matrix has no rows or some row is longer than the first.", "quantifier": "all matrices, including ragged and empty ones for the panic condition", "why_tests_cant": "Unbounded dimensions; no test for ragged input.", "anchors": ["src/data_structures.rs: Mat::transpose"]}
{"id": "C27", "title": "add, neg and scalar_mul act entrywise", "statement": "On rectangular matrices of equal shape (at least one row), add, neg and scalar_mul return the matrix of the same shape with the operation applied entry by entry.", "quantifier": "all dimensions, all entries", "why_tests_cant": "Unbounded dimensions.", "anchors": ["src/data_structures.rs: Mat::add, Mat::neg, Mat::scalar_mul"]}
{"id": "C28", "title": "Exact panic domain of matrix operations", "statement": "add, scalar_mul, left_mul and right_mul return normally on exactly an explicitly described set of inputs (stated on lengths only, covering ragged and empty matrices) and panic on every other input; neg never panics.", "quantifier": "all lists of lists of elements", "why_tests_cant": "Malformed shapes are an infinite space; no test covers them.", "anchors": ["src/data_structures.rs: trait Mat implementations"]}
{"id": "C29", "title": "Column-vector conversions are inverse", "statement": "col_vec_to_vec(vec_to_col_vec(v)) = v for every vector, including lengths 0 and 1, and vec_to_col_vec(col_vec_to_vec(M)) = M for every m x 1 matrix; col_vec_to_vec panics exactly when the matrix does not have exactly one row and some row is empty.", "quantifier": "all vectors and matrices", "why_tests_cant": "Unbounded lengths, special case for one row.", "anchors": ["src/data_structures.rs: col_vec_to_vec, vec_to_col_vec"]}
{"id": "C30", "title": "Commitment groups are vector spaces over the scalar field", "statement": "Com1, Com2 and ComT with +, -, neg, zero, sum are abelian groups; a - b = a + (-b); += and -= agree with + and -; sum over an iterator is order-independent; scalar_mul makes Com1 and Com2 modules over the scalar field; == is equality of all components and is_zero holds exactly for zero.", "quantifier": "all elements, all iterators, all permutations", "why_tests_cant": "Laws over huge domains.", "anchors": ["src/data_structures.rs: impl_base_commit_groups!, impls for Com1, Com2, ComT"]}
{"id": "C31", "title": "The commitment-group pairing is bilinear and non-degenerate", "statement": "ComT::pairing is additive and scalar-homogeneous in both arguments; it is zero on all partners only for the zero element when the underlying pairing is non-degenerate; pairing_sum on equal-length lists is the sum of the entrywise pairings and panics on lists of different lengths.", "quantifier": "all elements and lists", "why_tests_cant": "Laws over huge domains and unbounded lists.", "anchors": ["src/data_structures.rs: BT::pairing, BT::pairing_sum"]}
{"id": "C32", "title": "Linear maps commute with the bilinear maps", "statement": "For each equation type, pairing the images of two values equals the target-map image of their product: pairing(i1(x), i2(y)) = iT(e(x,y)), pairing(i1(x), i2'(y)) = iT(y x), pairing(i1'(x), i2(y)) = iT(x y), pairing(i1'(x), i2'(y)) = iT(x y), for every CRS with at least two key elements.", "quantifier": "all values, all CRS", "why_tests_cant": "Tests use one random sample.", "anchors": ["src/data_structures.rs: linear_map, scalar_linear_map, linear_map_PPE, linear_map_MSMEG1, linear_map_MSMEG2, linear_map_quad", "tests/commit.rs"]}
{"id": "C33", "title": "Linear maps are injective homomorphisms", "statement": "linear_map, scalar_linear_map and the four target maps are additive and scalar-homogeneous; linear_map and linear_map_PPE are injective for any CRS, the others are injective for every generated CRS with nonzero generators; the batch maps apply them entrywise preserving order and length.", "quantifier": "all values, all lists, all CRS as stated", "why_tests_cant": "Injectivity over a huge domain.", "anchors": ["src/data_structures.rs: linear maps and batch maps"]}
{"id": "C34", "title": "Shape of the generated CRS", "statement": "generate_crs draws one G1 element, one G2 element and four scalars a1,a2,t1,t2 in that order; the result has two-element keys with u = [(g1, a1 g1), (t1 g1, a1 t1 g1)], v = [(g2, a2 g2), (t2 g2, a2 t2 g2)] and gt_gen = e(g1, g2); gt_gen and the first key elements are nonzero when the generators are nonzero.", "quantifier": "all RNGs and states", "why_tests_cant": "Holds for every draw; tests check one draw.", "anchors": ["src/generator.rs: generate_crs, prepare_real_binding_key"]}
{"id": "C35", "title": "Generated keys are binding, simulated keys are hiding", "statement": "In every generated CRS the second key element is a scalar multiple of the first, so no non-zero (O, x) lies in their span when the generator is nonzero; in every key built with prepare_simulated_hinding_key and nonzero generator the two elements are linearly independent and span the whole commitment group; the two kinds of key for the same draws differ only by the generator in the last component.", "quantifier": "all draws", "why_tests_cant": "Holds for every draw.", "anchors": ["src/generator.rs: prepare_real_binding_key, prepare_simulated_hinding_key"]}
{"id": "C36", "title": "Exact success domain of prove", "statement": "prove returns normally exactly when the numbers of variables, constants, Γ rows and columns, randomness rows and key elements match as documented (at least one x and one y variable, Γ rectangular, randomness rows of the right width); on every other input it panics. In particular it never returns a proof for a commitment mixing group and scalar randomness.", "quantifier": "all equations (ragged Γ included), all variables, all commitments, all CRS, all RNGs, all schedules; four types", "why_tests_cant": "Malformed input space is infinite.", "anchors": ["src/prover/prove.rs: prove"]}
{"id": "C37", "title": "Exact non-panic domain of verify", "statement": "verify returns a boolean exactly when the CProof has one equation proof of the matching type and the numbers of constants, commitments, Γ rows, proof elements and key elements match as explicitly described; on every other input it panics. Hence verify is not total on adversarial proofs.", "quantifier": "all equations, all CProofs, all CRS, all schedules; four types", "why_tests_cant": "Malformed input space is infinite; tests only use honest proofs.", "anchors": ["src/verifier.rs: verify"]}
{"id": "C38", "title": "Shape and type tag of proofs", "statement": "Every proof returned by prove carries the equation's own type, as returned by get_type, and has 2/2, 2/1, 1/2, 1/1 elements in pi/theta for PPE, MSMEG1, MSMEG2, QuadEqu; commitments have one value and one randomness row (of width 2 for group values, 1 for scalars) per variable. commit_and_prove returns one commitment per variable on each side and exactly one such proof.", "quantifier": "all inputs on which the calls return", "why_tests_cant": "For all inputs.", "anchors": ["src/prover/prove.rs: EquProof, prove", "src/prover/commit.rs: batch_commit_*"]}
{"id": "C39", "title": "Random draws: count, order and independence", "statement": "commit_and_prove consumes exactly 2m+2n+4 (PPE), 2m+n+2 (MSMEG1), m+2n+2 (MSMEG2), m+n+1 (QuadEqu) scalar draws from the RNG, x rows first, then y rows, then the proof's matrix row by row, and its result depends on the RNG only through these draws; each draw is used in exactly one place of the recorded randomness. verify uses no randomness.", "quantifier": "all inputs on which the calls return, all RNGs", "why_tests_cant": "For all RNGs and sizes.", "anchors": ["src/prover/commit.rs: batch_commit_*", "src/prover/prove.rs: prove, commit_and_prove"]}
{"id": "C40", "title": "EquType encoding", "statement": "EquType serializes to exactly one byte in both modes, deserialization of that byte followed by anything returns the original value and leaves the rest unread, the reported serialized size is 1, and deserialization succeeds exactly on input starting with a byte 0..3 (any other first byte or empty input is an error).", "quantifier": "all four values, all byte strings, both compression modes, both validation modes", "why_tests_cant": "Quantifies over all byte strings.", "anchors": ["src/statement.rs: CanonicalSerialize/CanonicalDeserialize for EquType"]}
{"id": "C41", "title": "Serialization round trips", "statement": "For Com1, Com2, Commit1, Commit2, CRS, EquProof, PPE, MSMEG1, MSMEG2 and QuadEqu, deserializing the serialization of a value (compressed or not) followed by any bytes returns the value and leaves those bytes unread, given that the curve library's element codecs round-trip.", "quantifier": "all values with list lengths below 2^64, both modes, all trailing bytes", "why_tests_cant": "All values of unbounded size.", "anchors": ["src/statement.rs: derives", "src/prover/commit.rs: derives", "src/prover/prove.rs: EquProof derives", "src/generator.rs: CRS derives", "src/data_structures.rs: Com1, Com2 derives"]}
{"id": "C42", "title": "Serializations are unambiguous and of predictable size", "statement": "Distinct values of one type have distinct serializations and neither is a proper prefix of the other; the number of bytes produced equals the reported serialized size; truncated serializations are rejected.", "quantifier": "all pairs of values of each serializable type, both modes, all truncation points", "why_tests_cant": "All pairs of values.", "anchors": ["src/statement.rs: derives", "src/prover/prove.rs: EquProof derives"]}
{"id": "C43", "title": "Verification ignores randomness fields and surplus proof elements", "statement": "The result of verify depends only on the equation, the CRS, the commitment values, and pi and theta: never on the randomness stored in the commitments or proof. For MSMEG1 surplus elements after theta[0], for MSMEG2 after pi[0], and for QuadEqu after both are ignored, so accepted proofs of these types are malleable.", "quantifier": "all equations, CProofs, CRS", "why_tests_cant": "For all proofs.", "anchors": ["src/verifier.rs: verify"]}
{"id": "C44", "title": "Serialized commitments reveal the committed values", "statement": "A user would expect that publishing a serialized commitment keeps the witness secret, but Commit1/Commit2 serialization includes the randomness: on every CRS with two-element keys, also hiding ones, everyone who knows the public key elements computes the committed group elements from the bytes, and decides every guess for committed scalars (if the embedding of scalars is injective).", "quantifier": "all CRS with two-element keys, all ways of making commitments by commit, batch commit and append, all RNGs", "why_tests_cant": "Statement about all values and about information content.", "anchors": ["src/prover/commit.rs: Commit1, Commit2 derives, rand field"]}
{"id": "C45", "title": "A proof fixes its target", "statement": "One CProof that is accepted (under the same CRS, constants and Γ) for two targets forces the targets to be equal: for PPE under every CRS, for the other types under every generated CRS with nonzero generators.", "quantifier": "all equations, all CProofs, all pairs of targets", "why_tests_cant": "All adversarial proofs.", "anchors": ["src/verifier.rs: verify", "src/data_structures.rs: linear_map_PPE, linear_map_MSMEG1, linear_map_MSMEG2, linear_map_quad"]}
{"id": "C46", "title": "Commitments are additively homomorphic", "statement": "Adding entrywise two commitment lists to x and x' made with randomness R and R' gives the commitment to x + x' with randomness R + R'; scaling by s gives the commitment to s x with randomness s R.", "quantifier": "all lists of equal length, all scalars, all CRS with two-element keys, all four kinds", "why_tests_cant": "All values.", "anchors": ["src/prover/commit.rs: batch_commit_*"]}
{"id": "C47", "title": "No cross-type acceptance", "statement": "verify never returns true (it panics) when the proof's type tag differs from the equation's type or when the CProof does not carry exactly one equation proof.", "quantifier": "all equations, all CProofs, all CRS", "why_tests_cant": "All proofs.", "anchors": ["src/verifier.rs: verify", "src/statement.rs: get_type"]}
{"id": "C48", "title": "Empty variable lists are rejected", "statement": "batch commitment of an empty list and commit_and_prove or prove with no x variables or no y variables always panic; no proof is ever produced for an equation lacking variables on one side.", "quantifier": "all equations, CRS, RNGs", "why_tests_cant": "All equations.", "anchors": ["src/prover/commit.rs: batch_commit_*", "src/prover/prove.rs: prove"]}
{"id": "C49", "title": "A generated CRS is sound exactly if its generators are nonzero", "statement": "A user expects every output of generate_crs to be sound. generate_crs does not check that the sampled generators are nonzero: soundness and the binding of scalar commitments hold for exactly the outputs with nonzero generators (group element commitments are binding for all outputs), and for a zero generator there is a false statement with an accepted proof.", "quantifier": "all RNG outputs", "why_tests_cant": "The bad draws have negligible probability and never occur in tests.", "anchors": ["src/generator.rs: generate_crs"]}
{"id": "C50", "title": "Accepted and published proofs on a hiding CRS can be simulated", "statement": "With a hiding CRS and its trapdoor, for every satisfiable MSMEG1, MSMEG2 or QuadEqu equation there is a simulator that does not use the witness and whose output has exactly the distribution of the commitments and proof published by commit_and_prove.", "quantifier": "all equations of the three types, all satisfying witnesses, all tapes", "why_tests_cant": "Equality of distributions.", "anchors": ["src/prover/prove.rs: commit_and_prove", "README.md: zero-knowledge claim"]}
{"id": "C51", "title": "Binding and hiding CRS are indistinguishable under SXDH", "statement": "Any distinguisher between generated (binding) and simulated (hiding) CRS yields two explicit DDH distinguishers in G1 and two in G2 whose advantages sum to at least its own. Without a computational assumption the two kinds are distinguishable: linear dependence of the key elements tells them apart except when a zero generator is drawn.", "quantifier": "all distinguishers, as functions of the CRS", "why_tests_cant": "All distinguishers.", "anchors": ["src/generator.rs: module documentation, generate_crs, prepare_simulated_hinding_key"]}
{"id": "C52", "title": "Conversions between commitment elements and matrices", "statement": "as_col_vec/as_vec/as_matrix and From<Matrix> are inverse to each other for Com1, Com2 and ComT, and From<Matrix> panics exactly when the matrix is not 2x1 (resp. 2x2).", "quantifier": "all elements and all matrices", "why_tests_cant": "All matrix shapes.", "anchors": ["src/data_structures.rs: From<Matrix>, as_col_vec, as_vec, as_matrix"]}
{"id": "C53", "title": "verify decides exactly the Groth-Sahai verification equation", "statement": "Whenever verify returns, it returns true if and only if the one equation proof of the CProof satisfies the published verification equation of its type, written with entrywise tensor products of commitments, constants and proof elements under the pairing, for every CRS and every input, also malformed ones.", "quantifier": "all equations, all CProofs, all CRS, all schedules", "why_tests_cant": "An iff over all adversarial proofs and all sizes.", "anchors": ["src/verifier.rs: verify"]}
{"id": "C54", "title": "On a hiding CRS every accepted proof is a published proof of every witness", "statement": "On a simulated CRS with nonzero generators, for every satisfying witness each accepted proof of the right shape is the published output of commit_and_prove on exactly one random tape, so a published proof is uniformly distributed among the accepted ones and carries no information on which witness was used.", "quantifier": "all equations, satisfying witnesses, accepted proofs of the right shape", "why_tests_cant": "A statement about all accepted proofs and all randomness.", "anchors": ["src/prover/prove.rs: commit_and_prove", "src/verifier.rs: verify"]}
{"id": "C55", "title": "A hiding CRS is not sound", "statement": "On a simulated CRS whose trapdoor is known, every MSMEG1, MSMEG2 and QuadEqu equation, true or false, has accepted proofs, produced on every tape by the simulator; so a user must never verify under a CRS whose generation they do not trust.", "quantifier": "all equations of the three types with fitting sizes, all tapes, all simulated CRS with nonzero generators", "why_tests_cant": "Existence for all false statements.", "anchors": ["src/verifier.rs: verify", "src/generator.rs: prepare_simulated_hinding_key"]}
{"id": "C56", "title": "Computational witness indistinguishability under the CRS of generate_crs", "statement": "With the CRS that generate_crs really returns, any distinguisher between published proofs for two satisfying witnesses of one equation has advantage at most the sum of eight explicit DDH advantages plus 1/|G1| + 1/|G2| (zero generators).", "quantifier": "all equations, pairs of satisfying witnesses, distinguishers, schedules", "why_tests_cant": "All distinguishers.", "anchors": ["src/generator.rs: generate_crs", "src/prover/prove.rs: commit_and_prove"]}
{"id": "C57", "title": "Computational zero knowledge under the CRS of generate_crs", "statement": "For MSMEG1, MSMEG2 and QuadEqu, the CRS of generate_crs with a published proof is indistinguishable from a simulated CRS with the output of a simulator that has no witness, up to four explicit DDH advantages plus 1/|G1| + 1/|G2|.", "quantifier": "all equations of the three types, satisfying witnesses, distinguishers, schedules", "why_tests_cant": "All distinguishers.", "anchors": ["src/generator.rs: generate_crs", "src/prover/prove.rs: commit_and_prove", "README.md: zero-knowledge claim"]}
{"id": "C58", "title": "Deserialization admits one encoding per value", "statement": "If the curve library's element codecs are canonical (each element is read from one byte string only), so is the deserialization of Com1, Com2, Commit1, Commit2, CRS, EquProof, PPE, MSMEG1, MSMEG2 and QuadEqu: the bytes consumed are the serialization of the value read, so third parties cannot re-encode a proof.", "quantifier": "all byte strings, both compression and validation modes", "why_tests_cant": "All byte strings.", "anchors": ["src/statement.rs: derives", "src/prover/prove.rs: EquProof derives", "src/prover/commit.rs: derives", "src/generator.rs: CRS derives", "src/data_structures.rs: Com1, Com2 derives"]}
{"id": "C59", "title": "Validation covers every element", "statement": "Deserializing with validation succeeds exactly if deserializing the same bytes without validation does and every field and group element anywhere in the value (nested vectors included) passes its validity check; check on the whole value agrees.", "quantifier": "all byte strings and values of each serializable type", "why_tests_cant": "All byte strings; one unchecked position would be a subgroup attack.", "anchors": ["src/statement.rs: derives", "src/prover/prove.rs: EquProof derives", "src/prover/commit.rs: derives", "src/generator.rs: CRS derives", "src/data_structures.rs: Com1, Com2 derives"]}
{"id": "C60", "title": "Completeness of mixed statements about shared commitments", "statement": "A prover may commit once to four lists of variables (elements of G1 and scalars on the left, elements of G2 and scalars on the right) and prove any list of equations of any of the four types about these commitments; every call returns and every proof verifies with the shared commitments.", "quantifier": "all lists of satisfied equations with fitting sizes, all random sources, all schedules of each proof and verification", "why_tests_cant": "Unbounded lists of equations, values and schedules.", "anchors": ["src/prover/commit.rs: batch_commit_G1, batch_commit_scalar_to_B1, batch_commit_G2, batch_commit_scalar_to_B2", "src/prover/prove.rs: prove", "src/verifier.rs: verify"]}
{"id": "C61", "title": "Joint witness indistinguishability of mixed statements", "statement": "On a simulated CRS, the published commitments and all proofs of a statement of any number of equations of any types about shared commitments have, jointly, the same distribution for any two solutions of the same sizes.", "quantifier": "all lists of equations, pairs of solutions, schedules, nonzero generators", "why_tests_cant": "Equality of distributions over all randomness; indistinguishability of single proofs does not imply it, since they share commitments and their openings.", "anchors": ["src/prover/commit.rs: batch_commit_G1, batch_commit_scalar_to_B1, batch_commit_G2, batch_commit_scalar_to_B2", "src/prover/prove.rs: prove", "src/generator.rs: prepare_simulated_hinding_key"]}
{"id": "C62", "title": "Joint zero knowledge of mixed statements", "statement": "On a simulated CRS, a simulator that knows the trapdoors and the sizes but no solution produces, for a statement of any number of equations about shared commitments (whose PPEs have target 0), the same joint distribution of commitments and proofs as the prover.", "quantifier": "all lists of equations, solutions, schedules, nonzero generators", "why_tests_cant": "Equality of distributions over all randomness.", "anchors": ["src/prover/commit.rs: batch_commit_G1, batch_commit_scalar_to_B1, batch_commit_G2, batch_commit_scalar_to_B2", "src/prover/prove.rs: prove", "src/generator.rs: prepare_simulated_hinding_key", "README.md: zero-knowledge claim"]}
{"id": "C63", "title": "Adaptive computational indistinguishability and zero knowledge of mixed statements", "statement": "With the CRS that generate_crs really returns, an adversary that first sees the CRS, then chooses a statement and two solutions (or one solution), has advantage at most a sum of explicit DDH advantages plus 1/|G1| + 1/|G2| in telling which solution was used (or whether the commitments and proofs were simulated).", "quantifier": "all adaptive adversaries, statements, solutions and schedules", "why_tests_cant": "All adversaries.", "anchors": ["src/generator.rs: generate_crs", "src/prover/commit.rs: batch_commit_G1, batch_commit_scalar_to_B1, batch_commit_G2, batch_commit_scalar_to_B2", "src/prover/prove.rs: prove"]}
{"id": "C64", "title": "A published proof reveals part of the witness through its recorded randomness", "statement": "A proof carries the randomness it was made with, which its user cannot remove and which serialization includes. Even if the commitments are published without their randomness and the CRS is the hiding one, anyone can compute from commitments and proof a value that depends on the x variables; on a hiding CRS (whose scalar t is not zero on each side with scalar variables) the published data of two solutions have the same distribution exactly if the solutions agree on the linear terms x.B and (Gamma^T) x. So whole proofs are not witness indistinguishable.", "quantifier": "all equations of the four types, solutions, CRSs (exactness: all hiding ones, with t not zero on the sides with scalar variables), random sources, schedules", "why_tests_cant": "A statement about distributions over all randomness, and an exact characterization over all pairs of solutions.", "anchors": ["src/prover/prove.rs: EquProof (rand), prove", "src/prover/commit.rs: batch_commit_G1, batch_commit_scalar_to_B1, batch_commit_G2, batch_commit_scalar_to_B2", "src/generator.rs: prepare_simulated_hinding_key"]}
{"id": "C65", "title": "Accepted proofs are proofs of knowledge", "statement": "Whoever knows the scalars drawn by generate_crs can compute, from the commitments of any proof that verify accepts, values that satisfy the equation: the committed group elements, and for scalar variables the generator times the scalar. On commitments made by the library the computed values are the committed ones. Nothing about the groups, generators and pairing is assumed except bilinearity.", "quantifier": "all random sources of the setup, equations, proofs and schedules, however the proof was made", "why_tests_cant": "Every proof a malicious prover could find.", "anchors": ["src/generator.rs: generate_crs", "src/verifier.rs: verify", "src/prover/commit.rs: batch_commit_G1, batch_commit_G2, batch_commit_scalar_to_B1, batch_commit_scalar_to_B2"]}
{"id": "C66", "title": "Proofs can be re-randomized by anyone", "statement": "From CRS, equation and an accepted proof alone, and fresh random scalars, anyone can compute other commitments and another proof that verify accepts. If the proof was made by the library the result has, for uniform scalars, exactly the distribution of a fresh run of commit_and_prove on the same witness, on every CRS; on a simulated CRS the result has the distribution of a fresh run for every solution, whoever made the proof. So proofs are malleable and re-randomized proofs are unlinkable to the original.", "quantifier": "all equations, accepted proofs, CRSs, random scalars, witnesses, schedules", "why_tests_cant": "Equality of distributions; acceptance for every proof and every choice of scalars.", "anchors": ["src/prover/prove.rs: commit_and_prove, EquProof, CProof", "src/verifier.rs: verify"]}
{"id": "C67", "title": "Proofs about the same commitments can be added", "statement": "If two equations of the same type and sizes have accepted proofs with the same commitments, then any linear combination of the two proofs is accepted for the same combination of the equations (of constants, coefficients and targets).", "quantifier": "all pairs of equations of a type, accepted proofs, scalars, CRSs, schedules", "why_tests_cant": "For every accepted proof, also those not made by the library.", "anchors": ["src/prover/prove.rs: EquProof, CProof", "src/verifier.rs: verify"]}
{"id": "C68", "title": "Parallel products: every interleaving ends with the sequential result", "statement": "However the worker threads interleave the single steps (start of a row, start of an entry, one multiply-and-add, collecting a row, passing on a panic), a parallel left_mul or right_mul always ends: there is no infinite run and no state in which all threads wait. The only possible outcome is that of the sequential product, the same matrix or a panic; no partially filled matrix is ever returned.", "quantifier": "all matrices, also ragged and mismatched ones, and all interleavings of single steps of all tasks", "why_tests_cant": "All interleavings; a test run sees a few of them.", "anchors": ["src/data_structures.rs: Mat::left_mul, Mat::right_mul (is_parallel = true)"]}
{"id": "C69", "title": "What a panicking call leaves behind", "statement": "If a call panics and the caller catches it, the random generator passed to it is left exactly as after a known number of draws: a commitment function has made all its draws (so the randomness of a failed call is never handed out again); prove has made none if the recorded randomness does not fit the variables and gamma, and all of its draws otherwise; commit_and_prove has made the draws of the commitments it reached. A panicking append has changed neither of the two commitments.", "quantifier": "all keys, equations, variables, commitments (well formed or not), generators", "why_tests_cant": "Every way a call can fail, and the state after it, not only its result.", "anchors": ["src/prover/commit.rs: append, commit_G1, batch_commit_G1, commit_scalar_to_B1, batch_commit_scalar_to_B1, commit_G2, batch_commit_G2, commit_scalar_to_B2, batch_commit_scalar_to_B2", "src/prover/prove.rs: prove, commit_and_prove"]}
{"id": "C70", "title": "Proofs of linear equations can be added together with their commitments", "statement": "If an equation has no products of two variables, then for two accepted proofs of it with different commitments and targets, the linear combination of commitments and proof elements is accepted for the linear combination of the targets.", "quantifier": "all linear equations of the four types, accepted proofs, scalars, CRSs, schedules", "why_tests_cant": "For every accepted proof, also those not made by the library.", "anchors": ["src/prover/prove.rs: EquProof, CProof", "src/verifier.rs: verify"]}
{"id": "C71", "title": "Accepted proofs on a generated CRS are the honest ones, with one exception", "statement": "On a CRS of generate_crs (nonzero generators), an accepted proof of the right number of elements is published by commit_and_prove on some randomness if and only if it is run with exactly the values the commitments open to and, where there are two proof elements on a side, either some coefficient of a variable of that side is nonzero or these proof elements extract to zero. For quadratic equations every accepted proof is published. The exception is real: when all coefficients of the x vanish, there are accepted proofs no run of commit_and_prove publishes.", "quantifier": "all equations, accepted proofs (by anyone), witnesses, random tapes, schedules and CRSs of generate_crs with nonzero generators, in groups of prime order with a nondegenerate pairing", "why_tests_cant": "All accepted proofs, most of which no test produces, against all runs of the prover.", "anchors": ["src/prover/prove.rs: commit_and_prove", "src/verifier.rs: verify", "src/generator.rs: generate_crs"]}
{"id": "C72", "title": "== compares everything, the private randomness included", "statement": "== on commitments, proofs, collections of commitments and proofs, and equations returns true exactly if all fields agree, including the private recorded randomness. It is therefore an equivalence relation, and two proofs that no verifier can tell apart are still unequal if their private randomness differs.", "quantifier": "all pairs of values of these types, of any lengths", "why_tests_cant": "All pairs of values; a comparison that forgets a field passes most tests.", "anchors": ["src/data_structures.rs: Com1, Com2 PartialEq", "src/prover/commit.rs: Commit1, Commit2 PartialEq", "src/prover/prove.rs: EquProof, CProof", "src/statement.rs: EquType, PPE, MSMEG1, MSMEG2, QuadEqu"]}
{"id": "C73", "title": "The order of the variables does not matter", "statement": "Reordering the variables on either side together with their commitments (or randomness), constants and the rows and columns of gamma changes neither the outcome of verify nor, with the same random draws, the proof that prove returns.", "quantifier": "all permutations of the variables on both sides, all equations of the four types, all proofs (well formed or not), CRSs, generators, schedules", "why_tests_cant": "All permutations of all sizes; an index slip that only shows for some order passes fixed tests.", "anchors": ["src/prover/prove.rs: prove", "src/verifier.rs: verify"]}
{"id": "C74", "title": "Unused variables are ignored", "statement": "Adding a variable with a zero constant and zero coefficients to either side of an equation, with any commitment whatsoever, does not change the outcome of verify.", "quantifier": "all equations of the four types with at least one variable on each side, all commitments, proofs (well formed or not), CRSs, schedules", "why_tests_cant": "For every commitment to the unused variable, also malformed ones.", "anchors": ["src/verifier.rs: verify", "src/statement.rs: PPE, MSMEG1, MSMEG2, QuadEqu"]}
{"id": "C75", "title": "A public value can stand in for a committed variable", "statement": "If the commitment to a variable is linear_map(w) or scalar_linear_map(w), that is, a commitment without randomness, then verify gives the same outcome as for the equation in which the variable is replaced by w: its coefficients times w join the constants of the other side and its constant times w is subtracted from the target.", "quantifier": "all equations of the four types with at least one further variable on each side, both sides, all values, commitments, proofs (well formed or not), CRSs, schedules", "why_tests_cant": "For all values, sizes and proofs.", "anchors": ["src/verifier.rs: verify", "src/data_structures.rs: linear_map, scalar_linear_map"]}
{"id": "C76", "title": "A fresh CRS is sound except with negligible probability, whatever the attacker does", "statement": "With uniform draws, generate_crs returns a CRS on which no false equation has an accepted proof with probability exactly (1 - 1/|G1|)(1 - 1/|G2|). Hence an attacker of unlimited power who sees the CRS and then chooses a false equation of any of the four types and a proof makes verify return true with probability at most 1/|G1| + 1/|G2|; and an attacker against one fixed equation reaches 1 - (1 - 1/|G1|)(1 - 1/|G2|), so nothing better can be said.", "quantifier": "all functions from the CRS to an equation, proof and schedule, over uniform draws of generate_crs, in groups of prime order with a nondegenerate pairing", "why_tests_cant": "A probability over all draws and all attackers.", "anchors": ["src/generator.rs: generate_crs", "src/verifier.rs: verify"]}
{"id": "C77", "title": "The documented examples mean what is proved", "statement": "For the fields given as example in the documentation of each equation type (X = [U, W], Y = [V], A = [0], B = [0, N], gamma = [[5], [0]]), commit_and_prove followed by verify accepts exactly if e(W, N) * e(U, V)^5 = t (PPE), n W + 5 v U = t (MSMEG1), w N + 5 u V = t (MSMEG2), w n + 5 u v = t (QuadEqu). In particular the text (u * v)^5 of the quadratic example is not a power in the field: where 4 is not 0 there are values satisfying it whose honest proof is rejected.", "quantifier": "all values of the variables, constants and target, all CRSs (generated with nonzero generators for the last three types), generators, schedules", "why_tests_cant": "For all values; the documentation is not a doctest.", "anchors": ["src/statement.rs: PPE, MSMEG1, MSMEG2, QuadEqu", "src/prover/prove.rs: commit_and_prove", "src/verifier.rs: verify"]}
{"id": "C78", "title": "A commitment to a scalar is a commitment to that multiple of the generator", "statement": "batch_commit_scalar_to_B1(x) returns the commitments that batch_commit_G1(x g1) returns if it draws the same randomness followed each time by x (same for B2 and G2). So equations of all four types can be proved about one pair of lists of scalar commitments; and with a generated CRS with nonzero generators a commitment opens to x exactly if it opens to x times the generator, and one assignment of scalars to commitments satisfies every equation of every type that has an accepted proof.", "quantifier": "all nonempty lists of scalars, all CRSs with two commitment keys a side, random draws, equations, proofs (well formed or not), schedules", "why_tests_cant": "Relates the openings of unboundedly many proofs of different types.", "anchors": ["src/prover/commit.rs: batch_commit_scalar_to_B1, batch_commit_scalar_to_B2, batch_commit_G1, batch_commit_G2", "src/prover/prove.rs: prove", "src/verifier.rs: verify"]}
{"id": "C79", "title": "Which parts of the CRS a call reads", "statement": "No commit, prove, commit_and_prove or verify call depends on gt_gen of the CRS; for PPE equations none depends on g1_gen or g2_gen either, for MSMEG1 none on g1_gen, for MSMEG2 none on g2_gen, and committing to group elements depends on the key of its side (u or v) alone, committing to scalars on that key and the generator of its side. So a CRS whose generators are inconsistent goes unnoticed there. The generators that are read do matter: with one of them replaced by any other value, an accepted MSMEG1, MSMEG2 or QuadEqu proof stays accepted exactly if one explicit linear relation between constants, commitments and target holds.", "quantifier": "all CRSs, all replacement values, all equations, commitments, proofs, RNGs and schedules", "why_tests_cant": "Independence of a field must hold for every value of it and every input; tests use consistent CRSs only.", "anchors": ["src/generator.rs: CRS", "src/prover/commit.rs: batch_commit_G1, batch_commit_scalar_to_B1", "src/prover/prove.rs: prove, commit_and_prove", "src/verifier.rs: verify"]}
{"id": "C80", "title": "Changing one element of an accepted proof is detected", "statement": "If verify accepts, then after replacing one element of pi or theta (of those that verify uses), one commitment, or one constant, matrix entry or target of the equation, verify returns a boolean (it does not panic), and it is true exactly if the new value equals the old one or what it is paired with is zero: the key element for pi and theta, the coefficient b_i + sum_j gamma_ij d_j (resp. a_j + sum_i gamma_ij c_i) for a commitment, the commitment for a constant, one of two commitments for a matrix entry; a changed target is always detected for PPE equations. With a generated CRS with nonzero generators the first key elements and the images of the generators are not zero.", "quantifier": "all equations of the four types, accepted proofs, positions and replacement values, CRSs over groups of prime order with a nondegenerate pairing, schedules", "why_tests_cant": "All positions and all replacement values; tests flip a few.", "anchors": ["src/verifier.rs: verify", "src/statement.rs: PPE, MSMEG1, MSMEG2, QuadEqu"]}
{"id": "C81", "title": "Proofs about scalars become proofs about group elements", "statement": "An MSMEG1 or MSMEG2 equation holds exactly if the PPE equation obtained by pairing it with the generator of the other group holds for the variables times the generator; a quadratic equation exactly if the MSMEG1 or MSMEG2 equation obtained by multiplying with the generator holds. Anyone can complete a proof of the former with one element computed from the equation, the commitments and the CRS, without the witness, such that verify has the same outcome on the result and the new equation as on the original.", "quantifier": "all equations of the three types, commitments, proofs with one element of the right type tag (accepted or not, of any sizes), CRSs with two key elements on the side that is completed, schedules; for the first sentence nonzero generators and a nondegenerate pairing", "why_tests_cant": "For all equations and proofs, including ones no prover made.", "anchors": ["src/verifier.rs: verify", "src/data_structures.rs: scalar_linear_map, linear_map_MSMEG1, linear_map_MSMEG2, linear_map_quad, linear_map_PPE"]}
{"id": "C82", "title": "Serialization to any writer and from any reader, with failures and crashes", "statement": "Whatever pieces a writer accepts, however often it is interrupted: if serialization returns Ok, the writer has accepted exactly the bytes of the serialization; if it returns an error, a proper initial part of them; if the process is killed, some initial part. Whatever pieces a reader delivers: deserialization gives the same value or the same error as for a byte string and reads no byte more; if the reader fails, the result is an I/O error or the one it would have been. So what was written without an error is read back and the rest of the stream is left, and what was written up to an error or crash is never read as another value.", "quantifier": "all values of EquType, Com1, Com2, Commit1, Commit2, CRS, EquProof, PPE, MSMEG1, MSMEG2, QuadEqu, both modes, all sequences of answers of write and read, all crash points", "why_tests_cant": "All partial writes, partial reads, failures and crash points.", "anchors": ["src/statement.rs: EquType, PPE, MSMEG1, MSMEG2, QuadEqu", "src/data_structures.rs: Com1, Com2", "src/generator.rs: CRS", "src/prover/commit.rs: Commit1, Commit2", "src/prover/prove.rs: EquProof"]}
{"id": "C83", "title": "Calls that run at the same time do not affect each other", "statement": "Any number of prove, commit_and_prove and verify calls (each with its own RNG, sharing the CRS, equations and proofs) run at the same time and share the worker threads: however their steps and those of their parallel products interleave, all of them come to an end after finitely many steps, none waits for another for ever, and each returns what it returns alone, or panics as it does alone, whatever the others do, even if they panic.", "quantifier": "all numbers of calls, all inputs of each, all interleavings of their single steps", "why_tests_cant": "All interleavings of unboundedly many calls; tests run one call.", "anchors": ["src/prover/prove.rs: prove, commit_and_prove", "src/verifier.rs: verify", "src/data_structures.rs: left_mul, right_mul"]}
{"id": "C84", "title": "Exchanging the two source groups", "statement": "Exchange the two source groups (and the arguments of the pairing), the variables and constants of an equation, transpose its matrix, and exchange the commitments, pi and theta of a proof, and u and v and the generators of the CRS; this turns MSMEG1 into MSMEG2 and back, PPE and QuadEqu into themselves. The exchanged equation holds for the exchanged variables exactly if the original does; the exchanged CRS is the one generate_crs returns if it draws the exchanged elements; verify has the same outcome on the exchanged input; prove and commit_and_prove on the exchanged input publish the exchanged commitments and proofs, each equally often. So the code treats the two groups alike.", "quantifier": "all equations of the four types whose sizes fit, with at least one variable on each side; for verify all commitments and proofs, honest or not; all CRSs with two commitment keys a side, all randomness, all schedules", "why_tests_cant": "Relates two runs on all inputs; the code of the two sides is written separately.", "anchors": ["src/statement.rs: PPE, MSMEG1, MSMEG2, QuadEqu", "src/prover/prove.rs: prove, commit_and_prove", "src/verifier.rs: verify", "src/generator.rs: generate_crs"]}
{"id": "C85", "title": "Commitments on one side hide their values if DDH is hard in that group alone", "statement": "With the CRS of generate_crs, an adversary that sees the CRS, chooses two lists of equal lengths of group elements of G1 (or of scalars) and tells apart batch_commit_G1 (batch_commit_scalar_to_B1) of one from that of the other has at most the advantages of four explicit algorithms against DDH in G1, plus 1/|G1|. Nothing is assumed about G2, so the values stay hidden if DDH in G2 is easy; the same with the groups exchanged.", "quantifier": "all adversaries (any function of the CRS and the commitments with values in [0, 1]), all lists chosen depending on the CRS, all finite groups of prime order with a nondegenerate pairing", "why_tests_cant": "Probabilities over all randomness, and all adversaries.", "anchors": ["src/generator.rs: generate_crs", "src/prover/commit.rs: batch_commit_G1, batch_commit_G2, batch_commit_scalar_to_B1, batch_commit_scalar_to_B2"]}
{"id": "C86", "title": "Every possible commitment and every possible proof is equally likely", "statement": "With the CRS of generate_crs, batch_commit_G1 and batch_commit_G2 return every list of commitments that can be opened to the m values for exactly |F|^m of the |F|^(2m) random inputs, and no other; with a hiding CRS every list of m commitments for exactly one. The scalar commitments return every list that can be opened to the scalars for exactly one random input. For given commitments, all proofs prove can return are returned for equally many random inputs (PPE: |F| with a generated CRS, 1 with a hiding one; the others: 1), and with any CRS all results of commit_and_prove with the same commitments are returned for equally many.", "quantifier": "all equations, variables and commitments for which prove returns, all values committed to (at least one), all CRSs of generate_crs and simulated ones with nonzero generators (for the equality of the numbers: all CRSs), all schedules", "why_tests_cant": "Counts over the whole randomness space, for all inputs.", "anchors": ["src/prover/commit.rs: batch_commit_G1, batch_commit_G2, batch_commit_scalar_to_B1, batch_commit_scalar_to_B2", "src/prover/prove.rs: prove, commit_and_prove"]}
{"id": "C87", "title": "A proof is tied to its CRS", "statement": "A proof that does not depend on the CRS (made for another CRS, or by anyone without it) and has a nonzero element among those verify uses is accepted by verify with a fresh CRS of generate_crs with probability at most 1/|F| + 1/|G1| if an element of pi is nonzero, 1/|F| + 1/|G2| if one of theta is; so proofs cannot be replayed under another CRS. A PPE proof whose elements are all zero is accepted under every CRS or under none.", "quantifier": "all equations of the four types, all commitments and proofs (honest or not) chosen before the CRS, all schedules; finite groups of prime order with a nondegenerate pairing", "why_tests_cant": "Probability over the whole space of CRSs, for every proof.", "anchors": ["src/verifier.rs: verify", "src/generator.rs: generate_crs"]}
{"id": "C88", "title": "The groups are used only as black boxes", "statement": "Given homomorphisms of the three groups that respect the pairings, replace every group element of the inputs (of the equation, variables, commitments, CRS, proof, and those the RNG returns) by its image and keep the scalars: generate_crs, all commit functions, prove and commit_and_prove then return the image of what they return otherwise, leave the RNG in the same state, and panic for the same inputs. verify returns for the same inputs and accepts the image of every proof it accepts; if the map of the target group is injective it has the same outcome on every input. So nothing depends on the representation of group elements or the choice of generators, and e.g. multiplying all elements of G1 by a and all of G2 by b changes no decision.", "quantifier": "all bilinear groups over one field and all homomorphisms between them, all equations of the four types, all inputs (also those that panic), all CRSs, RNGs and schedules", "why_tests_cant": "Relates runs over two arbitrary groups; tests use one curve.", "anchors": ["src/generator.rs: generate_crs", "src/prover/commit.rs: commit_*, batch_commit_*", "src/prover/prove.rs: prove, commit_and_prove", "src/verifier.rs: verify"]}
{"id": "C89", "title": "Using a state of the RNG twice reveals the differences of the values, and nothing else", "statement": "Two batch commitments of equally many values made from the same state of the RNG differ exactly by the embedded differences of the values ((O, x' - x) for group elements, (x' - x)(u1 + (O, g)) for scalars), record the same randomness and leave the RNG in the same state; so they are equal exactly if the values are (for scalars if u1 + (O, g) is not zero, as on every CRS of generate_crs with nonzero generators), and anyone sees which values changed and by how much. On a hiding CRS they reveal nothing else: for all pairs of lists with the same differences the two commitments together are equally distributed.", "quantifier": "all lists of values of equal lengths, all four batch commitments, all RNGs and states; all CRSs (for the second part: all hiding ones with nonzero generators)", "why_tests_cant": "Relates two runs for all values, and distributions over all randomness.", "anchors": ["src/prover/commit.rs: batch_commit_G1, batch_commit_G2, batch_commit_scalar_to_B1, batch_commit_scalar_to_B2"]}
{"id": "C90", "title": "Which operations a call executes depends on the sizes of its inputs, not on secrets", "statement": "The sequence of calls to arkworks (additions, subtractions, negations, scalar multiplications, comparisons, pairings, random draws) that generate_crs, each commit function, prove and commit_and_prove make, and whether and how they panic, is the same for all inputs of the same sizes: it does not depend on the variables, the constants, the CRS, the randomness, nor on whether the statement is true. For verify the sequence is the same except for how many components of the two sides == compares before it finds a difference. The crate's own code therefore leaks nothing about witnesses through branches (zero scalars are multiplied like all others).", "quantifier": "all pairs of inputs of equal sizes, over all bilinear groups, including inputs that panic; all RNGs, all schedules (the same for both runs)", "why_tests_cant": "Relates every two executions; a test measures a few.", "anchors": ["src/generator.rs: generate_crs", "src/prover/commit.rs: commit_*, batch_commit_*", "src/prover/prove.rs: prove, commit_and_prove", "src/verifier.rs: verify", "src/data_structures.rs: left_mul, right_mul, add, neg, pairing_sum, scalar_linear_map"]}
{"id": "C91", "title": "No message makes verification more expensive", "statement": "For messages of the right sizes verify executes exactly: (PPE) 4 multi-pairings of n pairs, 8 of m pairs, 4 of |u| and 4 of |v| pairs, 2mn scalar multiplications and 2mn additions in G2, 16 additions in GT and 1 to 4 comparisons, 4 if it accepts; similarly with the embedding of scalars for the other types (there the proof elements cost 4 pairings each side that has one). For every message, honest or not, of whatever sizes, whether verify accepts, rejects or panics, it costs at most that, with the sizes those of the statement and the CRS: extra commitments, proofs or proof elements do not cost more.", "quantifier": "all statements, messages, CRSs and schedules; all prices of the single operations (so the number of operations of each kind)", "why_tests_cant": "A bound on the work over all attacker-chosen messages.", "anchors": ["src/verifier.rs: verify", "src/data_structures.rs: pairing_sum, pairing, left_mul, linear_map_*"]}
{"id": "C92", "title": "What commitments and proofs cost", "statement": "batch_commit_G1/G2 of n > 0 values return after exactly 2n random draws, 4n multiplications and 6n additions in the group; the scalar versions n draws, 4n and 4n; the single versions 2 (1) draws, 4 and 4. prove for an m x n equation (m, n > 0) executes no pairing and exactly (PPE) 4 draws, 6mn + 4n multiplications and 6mn + 4n + 4 additions of scalars, 4 negations, 4m + 4n + 8 multiplications and 4m + 4n + 16 additions in each of G1 and G2, and similarly for the other types; commit_and_prove costs the commitments plus this. So everything is linear in m + n in the groups.", "quantifier": "all equations with m, n > 0, all variables, commitments with randomness of the right shape, CRSs with two elements on each side, RNGs and schedules; all prices of the single operations", "why_tests_cant": "Exact operation counts for all sizes.", "anchors": ["src/prover/commit.rs: commit_*, batch_commit_*", "src/prover/prove.rs: prove, commit_and_prove", "src/data_structures.rs: left_mul, right_mul, add, neg"]}
{"id": "C93", "title": "Every commitment key binds or hides, and which it does can be seen from the key", "statement": "For every CRS with two elements per key, whoever made it, and each of the four kinds of commitment: either no two calls of the batch commitment function on different inputs, with any randomness, publish the same values, or what the function publishes is distributed independently of the values it commits to (a bijection of the randomness maps one run to the other). A key (u0, u1) binds group elements exactly when no combination r u0 + s u1 has first component O and second component different from O; it binds scalars exactly when u1 + (O, g) is no multiple of u0. With a nonzero generator, keys that bind group elements bind scalars; the key ((O, g), (g, O)) binds scalars and hides group elements.", "quantifier": "all CRSs with two elements per key over cyclic groups of prime order, all lists of values, all randomness", "why_tests_cant": "A dichotomy over all keys, including keys generate_crs never returns; relates distributions.", "anchors": ["src/prover/commit.rs: batch_commit_G1, batch_commit_G2, batch_commit_scalar_to_B1, batch_commit_scalar_to_B2", "src/generator.rs: CRS"]}
{"id": "C94", "title": "Exactly the binding CRSs are sound, whoever made them", "statement": "For every CRS with two elements per key: false PPE statements have no accepted proof exactly when the commitments to elements of G1 and of G2 are binding; MSMEG1 exactly when those to elements of G1 and to scalars in B2 are; MSMEG2 exactly when those to scalars in B1 and to elements of G2 are; quadratic equations exactly when those to scalars are on both sides. In the binding case every accepted proof has a solution assigning to each commitment the only value it can be opened to; otherwise there is a proof of a false statement that verify accepts under every schedule.", "quantifier": "all CRSs with two elements per key over nontrivial groups of prime order with a nondegenerate pairing, all equations, messages and schedules", "why_tests_cant": "An equivalence between a property of the CRS and a statement about all proofs.", "anchors": ["src/verifier.rs: verify", "src/generator.rs: CRS"]}
{"id": "C95", "title": "Exactly the equivocal CRSs give witness indistinguishability, whoever made them", "statement": "For every CRS with two elements per key and each type of equation: any two solutions of any equation lead to equally distributed published values of commit_and_prove exactly when the commitments used on both sides are equivocal (every commitment can be opened to every value).", "quantifier": "all CRSs with two elements per key over nontrivial groups of prime order with a nondegenerate pairing, all equations, all pairs of solutions, all randomness and schedules", "why_tests_cant": "Relates distributions for all pairs of witnesses and all keys.", "anchors": ["src/prover/prove.rs: commit_and_prove", "src/generator.rs: CRS"]}
{"id": "C96", "title": "Each side of a proof hides its variables if its own key hides", "statement": "For every CRS with two elements per key and each type of equation: what commit_and_prove publishes is distributed equally for all xvars that solve the equation with given yvars exactly when the commitments to xvars are equivocal, whatever the other key is; and the same with the sides exchanged.", "quantifier": "all CRSs with two elements per key over cyclic groups of prime order with a nondegenerate pairing, all equations, all solutions, all randomness and schedules", "why_tests_cant": "Relates distributions for all pairs of witnesses and all keys.", "anchors": ["src/prover/prove.rs: commit_and_prove", "src/generator.rs: CRS"]}
{"id": "C97", "title": "An honest proof is tied to its equation", "statement": "If commit_and_prove is called for an equation that the variables satisfy, then the probability that its output is accepted for another given equation of the same type and sizes (one that differs in any constant, any entry of gamma or the target), even one that the variables also satisfy, is at most 2 divided by the order of the scalar field. A message made without randomness is not tied: for every assignment there is one message that verify accepts for all equations that the assignment satisfies.", "quantifier": "all generated CRSs with nonzero generators (and all CRSs whose first key elements and scalar embeddings are nonzero), all pairs of different equations, all variables, all schedules; the message for all equations: all CRSs with two elements per key", "why_tests_cant": "A probability over all randomness, for all pairs of equations.", "anchors": ["src/prover/prove.rs: commit_and_prove", "src/verifier.rs: verify"]}
{"id": "C98", "title": "What two proofs made from one state of the generator reveal", "statement": "If commit_and_prove is called twice from the same state of the RNG (a cloned or restored generator) for two equations of the same type and sizes, anyone who sees the two results computes, on every CRS, the sum over i of the pairing of the embedding of x_i with the difference of b'_i + sum_j gamma'_ij d'_j and b_i + sum_j gamma_ij d_j, where d and d' are the published commitments to yvars. For one equation and two assignments this is x . Gamma (y' - y). On a hiding CRS with trapdoors different from zero on the scalar sides, and for one equation, the differences x' - x and y' - y and this value are all that is revealed: two pairs of solutions lead to equally distributed pairs of results exactly when they agree on these.", "quantifier": "all CRSs with two elements per key (exactness: all simulated CRSs), all equations, all assignments (exactness: all pairs of pairs of solutions), all RNGs and schedules", "why_tests_cant": "Relates distributions of pairs of runs, for all witnesses.", "anchors": ["src/prover/prove.rs: commit_and_prove", "src/prover/commit.rs: batch_commit_*"]}
{"id": "C99", "title": "What a bad random number generator costs", "statement": "If the scalars come from a generator started from a random seed instead of being uniform, then whoever tells commit_and_prove for one solution from commit_and_prove for another on a hiding CRS tells the generator's output from uniform scalars, with at least half the advantage, by an explicit test that runs commit_and_prove once; on the CRS of generate_crs they do this or break DDH. On every CRS, exchanging the generator for a uniform one changes the probability that a test of the published values accepts by exactly the advantage of that test against the generator. The same holds for batch commitments on a hiding CRS.", "quantifier": "all generators and finite sets of seeds, all tests, all equations, all pairs of solutions, all schedules; all lists of values", "why_tests_cant": "Quantifies over generators and distinguishers; relates probabilities.", "anchors": ["src/prover/prove.rs: commit_and_prove", "src/prover/commit.rs: batch_commit_*"]}
{"id": "C100", "title": "Any program using the API behaves like a ledger of values", "statement": "Take any sequence of calls: single and batch commitments on both sides and of both kinds, append, clone, writing to bytes and reading back, prove, commit_and_prove, storing proofs received from anyone, verify. Panics are caught. Keep a ledger that only records, for each variable, which values were committed to, and for each proof, what it was made for. Then every outcome is determined or bounded by the ledger: commit calls, append, clone and reading back succeed; an empty batch panics; prove and commit_and_prove return exactly when sizes and kinds fit and panic otherwise; verify panics exactly when the sizes or the tag of the proof do not fit, and otherwise returns a verdict, where true means that the recorded values satisfy the equation (for any proof, wherever it came from), and a proof made from the recorded values of these very commitments is accepted exactly when they satisfy the equation.", "quantifier": "all sequences of calls of any length and their arguments, all proofs received, all generated CRSs with nonzero generators, all generators, all schedules, all lawful codecs of elements", "why_tests_cant": "Quantifies over all histories of calls; the properties of single calls must compose, also across panics.", "anchors": ["src/prover/commit.rs: commit_*, batch_commit_*, append", "src/prover/prove.rs: prove, commit_and_prove", "src/verifier.rs: verify"]}
{"id": "C101", "title": "Parts of points outside the prime-order subgroup go unnoticed", "statement": "Unchecked points (Validate::No, unchecked constructors, public fields) may have a part whose order divides the cofactor. If the pairing ignores such parts, verify, for every equation type, behaves exactly as on the points without these parts, panics included. So an accepted proof shows that the projected commitments open to values satisfying the projected equation, and no more: anyone who knows a point of cofactor order can change a commitment without changing the verdict, and an MSMEG1 equation whose target was moved out of the subgroup, which no values of the subgroup satisfy, has accepted proofs.", "quantifier": "all groups of points with any multiplication by scalars that the projection onto the subgroup respects, all pairings that look only at the projections (on either or both sides), all equations, messages, CRSs and schedules", "why_tests_cant": "Tests use points of the subgroup only.", "anchors": ["src/verifier.rs: verify", "src/data_structures.rs: Com1, Com2, pairing, scalar_linear_map, left_mul"]}
{"id": "C102", "title": "Opening some commitments keeps the others hidden", "statement": "If, after committing to variables and proving any equations about them, the prover opens some of the commitments (hands over the value and the randomness recorded by the commit function), each opening reproduces its published commitment, and what is then seen is distributed equally for any two solutions that agree on the opened variables, on a hiding CRS. With the CRS of generate_crs, whoever tells two such solutions apart breaks DDH. If the solutions differ in an opened variable, the views never coincide.", "quantifier": "all statements of any number of equations of all types about shared commitments, all pairs of solutions, all choices of opened variables, all randomness and schedules", "why_tests_cant": "Relates distributions for all pairs of solutions and all choices of what is opened.", "anchors": ["src/prover/commit.rs: batch_commit_*, Commit1, Commit2", "src/prover/prove.rs: prove"]}
{"id": "C103", "title": "Debug output shows everything, the private randomness included", "statement": "The text printed by {:?} or {:#?} (dbg!) for a commitment, a proof, a CProof, an equation, a CRS, an element of the commitment groups, a matrix or an equation type determines the value with all its fields, also the non-public field rand. So from the printed text of a commitment the committed values can be read, and from the printed text of what commit_and_prove returns the whole witness, on hiding CRSs too.", "quantifier": "all values of these types, both styles, all CRSs with two elements per key (for scalars: whose scalar embedding is not zero), all ways of making commitments, all equations, RNGs and schedules; any output of field and group elements from which one can see which element it is and where it ends", "why_tests_cant": "Injectivity over all values; a leak by logging does not fail any test.", "anchors": ["src/prover/commit.rs: Commit1, Commit2", "src/prover/prove.rs: EquProof, CProof", "src/generator.rs: CRS", "src/statement.rs: PPE, MSMEG1, MSMEG2, QuadEqu, EquType", "src/data_structures.rs: Com1, Com2, ComT, Matrix"]}
{"id": "C104", "title": "Whoever drives a whole program learns nothing about its secrets", "statement": "Let an adversary choose, one after the other and depending on everything published so far, the calls that a program makes: single and batch commitments, append, clone, writing and reading back, prove, commit_and_prove, storing received proofs, verify. Each call is given twice, with secrets for a first and for a second world of the same kinds and numbers; provers are honest in both worlds. The adversary sees the outcomes (panics and verdicts included), all commitments and proofs, and may ask for the recorded randomness of any commitment whose value is the same in both worlds. On a hiding CRS the output of every such adversary has the same distribution in both worlds. On the CRS of generate_crs, telling the worlds apart breaks DDH in one of the groups; without that assumption they can be told apart with certainty.", "quantifier": "all adaptive adversaries making any number of calls, all pairs of worlds, all CRSs, all schedules, all randomness", "why_tests_cant": "Quantifies over all adaptive histories and compares distributions.", "anchors": ["src/prover/commit.rs: commit_*, batch_commit_*, append", "src/prover/prove.rs: prove, commit_and_prove", "src/verifier.rs: verify"]}
{"id": "C105", "title": "A simulator without the secrets is as good as a whole program", "statement": "Let an adversary choose, one after the other and depending on everything published so far, the calls that a program makes: single and batch commitments, append, clone, writing and reading back, prove, commit_and_prove, storing received proofs, verify; calls of prove are honest, and pairing product equations proved have target zero. It may also have any commitment opened. Then everything that it sees (outcomes, panics and verdicts included, all commitments and proofs, the opened randomness) can be produced by a simulator that chose the hiding CRS and is given each call with all secrets replaced by zeros, and each committed value (a group element as a multiple of the generator) only when its commitment is opened: on that CRS the output of every adversary is exactly the same, and compared with the CRS of generate_crs whoever notices a difference breaks DDH in G1 or G2.", "quantifier": "all adaptive adversaries making any number of calls, all secrets, all CRSs, all schedules, all randomness", "why_tests_cant": "Quantifies over all adaptive histories and compares distributions with those of a simulator.", "anchors": ["src/prover/commit.rs: commit_*, batch_commit_*, append", "src/prover/prove.rs: prove, commit_and_prove", "src/verifier.rs: verify"]}
{"id": "C106", "title": "Committing to and proving about unchecked points", "statement": "With points outside the prime-order subgroup (unchecked constructors, Validate::No) in values, constants or CRS, committing and proving do, part by part, what they do with the parts alone: projecting everything into the subgroup first gives the projection of the result, and the same panics. commit_and_prove returns, and verify accepts, if the projected values satisfy the projected equation. But hiding is lost: the part of a value outside the subgroup stands in its commitment; a constant of a pairing product equation with such a part makes the published proof show that part times the randomness of the commitments, so that the committed value is determined on every CRS if the multiples of that part are distinct; a CRS with such parts can make commitments binding although its projection is hiding. This is so for both groups, and for commitments to scalars with such a CRS. A single such constant of a multi-scalar multiplication equation reveals the secret scalar beside it.", "quantifier": "all groups with additions of a commutative group and any multiplication by scalars, all homomorphisms respecting both, all values, equations, CRSs, RNGs and schedules", "why_tests_cant": "Holds for all points and all randomness; unit tests use points of the subgroup only.", "anchors": ["src/prover/commit.rs: commit_*, batch_commit_*", "src/prover/prove.rs: prove, commit_and_prove", "src/data_structures.rs: Com1, Com2, scalar_linear_map, left_mul", "src/verifier.rs: verify"]}
{"id": "C107", "title": "From the bytes of a message to the answer of the verifier", "statement": "The public fields of a CProof are sent as the serialized tuple (xcoms, ycoms, equ_proofs); the receiver deserializes it with validation, whatever the bytes, and calls verify for its own equation and CRS. The result is a deserialization error, or else exactly that of verify on a message all of whose points are in the prime-order subgroups. If the answer is true and the CRS came from generate_crs with nonzero generators, the commitments in the bytes open to values that satisfy the equation. A message that was sent gets the answer it would have got without being sent, with anything after it in the stream; so what commit_and_prove returns for a solution is accepted. Every truncated message is an error. Different messages have different bytes. Forty zero bytes make every receiver panic. Without validation, whoever knows a point of cofactor order can turn each accepted message into bytes that are accepted although they contain points outside the subgroup; with validation these bytes are an error.", "quantifier": "all byte strings, both modes, all codecs of elements that check membership in the subgroup, all equations of the four types, all CRSs and schedules", "why_tests_cant": "Ranges over all byte strings and composes deserialization, validation and verification.", "anchors": ["src/prover/prove.rs: CProof, EquProof, commit_and_prove", "src/prover/commit.rs: Commit1, Commit2", "src/verifier.rs: verify"]}
{"id": "C108", "title": "The memory that reading takes", "statement": "Deserializing a commitment, CRS, proof or equation first reserves, for each vector, the memory for as many elements as the length prefix in the input says. If all these requests are granted, the result is that of C41, C58 and C59; otherwise reading ends in a panic or abort at the first request that is too large. When a value is returned, exactly the memory for its vectors was reserved, at most a constant times the number of bytes read; serialized values are read back exactly when there is room for each of their vectors. But eight bytes of input suffice to have any number of elements reserved, and the eight bytes 0xFF stop every reader of a Commit1, Commit2, CRS, EquProof or equation with a panic, with and without validation.", "quantifier": "all byte strings, both modes, with and without validation, all limits of memory, all sizes and codecs of elements", "why_tests_cant": "Ranges over all inputs and all memory limits; a hostile length prefix is one input among 2^64.", "anchors": ["src/prover/commit.rs: Commit1, Commit2", "src/prover/prove.rs: EquProof", "src/generator.rs: CRS", "src/statement.rs: PPE, MSMEG1, MSMEG2, QuadEqu", "src/data_structures.rs: Com1, Com2, Matrix"]}
{"id": "C109", "title": "The encodings of a value are put together from the encodings of its elements", "statement": "Reading a commitment, CRS, proof or equation succeeds exactly if the bytes consist of the lengths of its vectors, the byte for the equation type, and one encoding after the other for its field and group elements in the documented order, and (with validation) all these elements pass their check. This needs no assumption that an element is read back from what was written for it, or only from that. A serialized value is read back if each element is; it has no other encoding exactly if each element has no other; and the format as a whole is canonical exactly if those of the elements are.", "quantifier": "all byte strings, all values, both modes, with and without validation; all element codecs whose reading depends on the bytes consumed only and for which validation is reading and checking", "why_tests_cant": "Ranges over all byte strings and all codecs; a second encoding of one value is not found by round-trip tests.", "anchors": ["src/prover/commit.rs: Commit1, Commit2", "src/prover/prove.rs: EquProof", "src/generator.rs: CRS", "src/statement.rs: PPE, MSMEG1, MSMEG2, QuadEqu, EquType", "src/data_structures.rs: Com1, Com2"]}
{"id": "C110", "title": "Serialized commitments and proofs of curve points can be changed without changing the value", "statement": "With the arkworks format of field elements, quadratic and cubic extensions, short Weierstrass points and target group elements: field and target elements are read back and have one encoding. A point has exactly the encodings listed here: the identity is read from every string with its flag, in uncompressed form the flag for the sign is ignored, and in compressed form a point has one encoding unless it is the identity or has order two. So no format of commitments, CRSs, proofs or equations is canonical; every uncompressed proof with any commitment element can be changed to other bytes that are read, with validation, as the same proof; a compressed proof has one encoding exactly if it contains no identity and no point of order two. A point is read back uncompressed whatever its coordinates, compressed exactly if it is on the curve. Restricted to points of the curve the format is lawful, so that C41, C42, C59 and C107 hold for it; all points read with validation, or in compressed form, are on the curve. The same holds for whole messages: a receiver that reads and verifies (C107) gives to the changed bytes the answer it gives to those that were sent.", "quantifier": "all prime fields whose bytes leave room for the flags, all short Weierstrass curves and subgroup tests, all values, byte strings, modes", "why_tests_cant": "A second encoding of the same proof is not found by round-trip tests; holds for all points and bytes.", "anchors": ["src/prover/commit.rs: Commit1, Commit2", "src/prover/prove.rs: EquProof", "src/generator.rs: CRS", "src/statement.rs: PPE, MSMEG1, MSMEG2", "src/data_structures.rs: Com1, Com2"]}
{"id": "C111", "title": "The length of a message says nothing but the numbers of variables", "statement": "If all encodings of an element have the same length (as in the arkworks format, for which the lengths of field elements and points are given), then the serialized results of the commit functions, of prove, of commit_and_prove and of generate_crs have the lengths given here, whatever the values, constants, randomness and schedule: commitments take the same for each variable, and a proof takes the same for every equation of its type, however many variables and constants it has. So traffic analysis shows the type of the equation and the numbers of variables only.", "quantifier": "all equations of the four types, all witnesses, CRSs, RNGs and schedules, both modes, all element sizes", "why_tests_cant": "Holds for all numbers of variables and all values; tests measure single values.", "anchors": ["src/prover/commit.rs: commit_*, batch_commit_*, Commit1, Commit2", "src/prover/prove.rs: prove, commit_and_prove, EquProof, CProof", "src/generator.rs: generate_crs, CRS", "src/data_structures.rs: Com1, Com2, Matrix"]}
{"id": "C112", "title": "A proof made with other values than those committed to is refused", "statement": "prove takes the values and the commitments as separate arguments and does not compare them. For commitments to x and y and any values x' and y' of the same number it returns a proof, which verify accepts exactly if the equation at the committed values, plus a trace of the differences given here, has its target. If no row or column of the matrix of the equation tells the values from the committed ones (for instance, if the equation is linear), prove returns the very proof it returns for the committed values. Otherwise, when the commitments are made at random, the proof is accepted with probability at most 1/|F|, whether or not x, y or x', y' satisfy the equation.", "quantifier": "all equations of the four types, all committed and passed values, all generated CRSs (nonzero generators) or CRSs with nonzero keys, all randomness and schedules", "why_tests_cant": "Ranges over all pairs of values and all randomness; the bound is a probability.", "anchors": ["src/prover/prove.rs: prove", "src/prover/commit.rs: batch_commit_*", "src/verifier.rs: verify"]}
{"id": "C113", "title": "Proofs about committed values serve for values computed from them", "statement": "Linear combinations of commitments, with the images of public values added, are commitments to the same combinations of the committed values, with the same combinations of the randomness. An equation about the combinations is an equation of the same type about the committed values, given here. The same proof elements are accepted for the combined commitments and the equation about the combinations exactly if they are for the original ones; verify also panics in the same cases. prove returns the very same proof for both. So who knows the committed values can prove the equation about the combinations, and anyone can turn the message into one about commitments to the combinations. (C73, C74 and C75 are special cases of this.)", "quantifier": "all equations of the four types, all matrices of coefficients and public values, all commitments and proofs (honest or not), all CRSs, RNGs and schedules", "why_tests_cant": "Ranges over all linear combinations, equations and messages of any size.", "anchors": ["src/verifier.rs: verify", "src/prover/prove.rs: prove, commit_and_prove", "src/prover/commit.rs: batch_commit_*, Commit1, Commit2", "src/data_structures.rs: linear_map, scalar_linear_map, Com1, Com2"]}
{"id": "C114", "title": "With the curve BLS12-381, serialized values have one encoding; generators and targets may be off the curve", "statement": "With the point format of ark-bls12-381, the curve of the tests and benchmarks, exactly the strings listed here are read as a point. The identity and every point of the curve has one encoding in each form, unless it is of order two, and the curves have no such points; so commitments, CRSs, proofs and equations are read from nothing but their serialization. All points of commitments, proofs and pairing product equations read with validation are on the curve and in the subgroup. The generators of a CRS and the targets of multi-scalar equations are only tested for the subgroup when read in uncompressed form: a pair of coordinates off the curve is let through, if the test takes it for a point. In compressed form validation is full.", "quantifier": "all byte strings, all points, CRSs, commitments, proofs and equations, all curves and base fields with room for three flags", "why_tests_cant": "Ranges over all byte strings and over values of any size.", "anchors": ["src/generator.rs: CRS", "src/prover/commit.rs: Commit1, Commit2", "src/prover/prove.rs: EquProof", "src/statement.rs: PPE, MSMEG1, MSMEG2"]}
{"id": "C115", "title": "Scalars and generators are drawn from the words of the generator without bias, zero generators excepted", "statement": "Drawing a scalar takes the first block of words whose lowest bits are a number below the modulus, and uses up the words to the end of that block, no others. It returns exactly if there is such a block; with a generator stuck at ones the call never returns. If all sequences of words are equally likely, so are all sequences of scalars, however many attempts are needed, and each attempt fails in at most half of the cases; so what is proved of uniform scalars holds for scalars drawn from uniform words. Two generators with the same words give the same commitments and proofs, and the same number of words is used up. The generators of the CRS: all but zero are equally likely; zero is less likely than the others, and never drawn if the cofactor is 1.", "quantifier": "all generators of words, all prime fields and word sizes, all numbers of scalars and attempts, all curves without points of order two, all equations and values", "why_tests_cant": "Ranges over all generators and over sequences of words of any length; the exact distribution is a count over all of them.", "anchors": ["src/generator.rs: CRS::generate_crs", "src/prover/commit.rs: batch_commit_G1, batch_commit_G2, batch_commit_scalar_to_B1, batch_commit_scalar_to_B2", "src/prover/prove.rs: Provable::commit_and_prove, Provable::prove"]}
{"id": "C116", "title": "The repository's own tests pass whatever the random number generator returns, with three exceptions known exactly", "statement": "Each test function of the repository, run from any state of the generator, with any schedule of the parallel products and any lawful format of elements that accepts them all, returns without panic. Exceptions: the test for valid generators passes exactly if both generators drawn are non-zero; the test of the binding key passes exactly if moreover both scalars t drawn are non-zero; the four tests that compare commit_and_prove with committing and then proving run two generators, and pass exactly if the generators return the same scalars after the setup, in particular if they start in the same state.", "quantifier": "all states of the generator (two of them where a test has two), all schedules, all lawful formats, all fields and groups", "why_tests_cant": "A test run is one state of the generator. That a test is not flaky, and from which states it fails, ranges over all of them.", "anchors": ["src/data_structures.rs: mod tests", "src/generator.rs: test_valid_generators, test_valid_binding_CRS, test_CRS_serde", "src/statement.rs: mod tests", "src/prover/commit.rs: mod tests", "src/prover/prove.rs: mod tests", "tests/commit.rs", "tests/prover.rs"]}
{"id": "C117", "title": "The benchmarks return, the large ones for equally many variables on both sides", "statement": "Each benchmark of the repository, run from any state of the generator, with any schedule and any number of repetitions, returns without panic. With other numbers m, n in place of the 334 of the code: the benchmark of field matrix products still returns, those of commitments return exactly if there is something to commit to, and those of large pairing product equations exactly if m = n and there are variables.", "quantifier": "all states of the generator, all schedules, all numbers of repetitions, all sizes m and n", "why_tests_cant": "A benchmark run is one state of the generator and one number of repetitions; the numbers of variables are written into the code.", "anchors": ["benches/bench.rs"]}
{"id": "C118", "title": "Proofs are complete and sound from the bytes of points of an elliptic curve", "statement": "Let the groups be the points of two Weierstrass curves that are killed by a prime r, with the addition of points, and the scalars the integers modulo r. If a curve has r*h points and r does not divide h, this subgroup has r elements; with any pairing that is not zero, all that the other properties ask of the groups holds. In the formats of ark-ec and of BLS12-381 every element of the subgroup is read back, and what validation accepts is an element of the subgroup. So whatever bytes a receiver accepts, the commitments in them open to values that satisfy the equation, and what an honest prover sends is accepted. The sampler of points, followed by multiplication by the cofactor, draws all elements but the identity equally often, and the identity h-1 times for every h times of another one.", "quantifier": "all smooth Weierstrass curves over all fields, all primes r, all pairings, all equations, CRSs, bytes, schedules and numbers of attempts of the sampler", "why_tests_cant": "Tests run on one curve with honest points; the bytes of points outside the subgroup and the distribution of draws cannot be enumerated.", "anchors": ["src/data_structures.rs: Com1, Com2", "src/prover/commit.rs: Commit1, Commit2", "src/prover/prove.rs: CProof, EquProof, commit_and_prove", "src/verifier.rs: verify", "src/generator.rs: CRS, generate_crs"]}
{"id": "C119", "title": "What is proved for uniform generators holds for generators drawn by the library", "statement": "Let the generators of the CRS be drawn as the library does it: coordinates and signs are tried until there is a point, which is multiplied by the cofactor. Then no distinguisher, however powerful, tells the CRS from one with uniform generators with an advantage above 1/N1 + 1/N2, where N1 and N2 are the numbers of points of the curves. The CRS is sound with probability exactly (1 - (k1-1)/(r k1 - 1)) (1 - (k2-1)/(r k2 - 1)), where k1 and k2 are the cofactors; an attacker who sees it before choosing a false equation and a proof is accepted with probability below 2/r, and never if the curves have prime order. Whoever drives a whole program learns nothing about its secrets, and a simulator without them is as good, up to the advantage against SXDH, 2/r and these distances. n attempts all fail with probability exactly (1 - (N-1)/(2q))^n, where q is the size of the field.", "quantifier": "all smooth Weierstrass curves of odd order over all finite fields, all primes r that do not divide the cofactors, all pairings, all attackers and distinguishers, all numbers of attempts", "why_tests_cant": "A distribution over the draws of generate_crs cannot be read off from runs; the probabilities concerned are about 2^-255.", "anchors": ["src/generator.rs: CRS::generate_crs", "src/verifier.rs: verify", "src/prover/prove.rs: commit_and_prove", "src/prover/commit.rs: batch_commit_*"]}
{"id": "C120", "title": "BLS12-381 meets what is asked of the curve, but its test for the subgroup does not reject points off the curve", "statement": "With the constants and methods of ark-bls12-381: both characteristics are prime; the curves of the two groups have exactly r h1 and r h2 points, for the published cofactors; the fast tests for the subgroup accept, among the points of the curve, exactly the r multiples of the published generator; square roots are found exactly for squares and the computation never panics; no point is its own negative. So the hypotheses about curves of the other properties hold for it: a message in its byte format is read with validation exactly if it is one of group elements, any bytes a validating receiver accepts are a proof of the equation, the bytes of honest proofs are accepted, the sampler of generators fails n times with probability at most 1/2^n and gives a CRS for which, except with probability below 1/2^253, no bytes make a validating receiver accept a statement for which they are not a proof; with such a CRS whole programs hide their secrets up to SXDH and 1/2^253. The tests do not look at the curve: (s^2 x, s^3 y) is accepted whenever (x, y) is, for all s of the prime field but 0, so for every element of a subgroup but the identity there are points off the curve that are read in uncompressed form with validation.", "quantifier": "all points, all pairs of coordinates, all field elements, all bytes, all equations, all pairings of the two subgroups that are not zero", "why_tests_cant": "The fields have 2^381 and 2^762 elements and the curves as many points.", "anchors": ["tests/prover.rs: Bls12_381", "src/generator.rs: CRS::generate_crs, CRS", "src/data_structures.rs: Com1, Com2", "src/statement.rs: MSMEG1, MSMEG2", "src/verifier.rs: verify"]}
{"id": "C121", "title": "A verifier that is given the CRS, the equation and the proof as bytes is as sound as one that is given group elements", "statement": "If every one of the two groups and the target group is read with validation exactly from the bytes of its elements, then a CRS or an equation that is read with validation is one over the groups, and only one; the verifier that reads all three answers as verify does on what the bytes stand for; whatever it accepts under the bytes of a generated CRS is proved, and under any CRS whose keys bind, the committed values satisfy the equation that was sent; the bytes of a generated CRS, an equation and an honest proof of it are accepted. BLS12-381, with its target group in the field of p^12 elements, is such a case in compressed form, and in uncompressed form if check is called on the CRS and on the multi-scalar equations that were read: without this, a CRS whose first generator is off the curve is read with validation. An attacker who sees a CRS with sampled generators and then chooses the bytes of equation and proof succeeds with probability below 1/2^253.", "quantifier": "all bytes, all CRSs, all equations of the four types, all honest witnesses, all attackers, both forms, all schedules of the verifier, all pairings that are not zero", "why_tests_cant": "The space of bytes is infinite and the target group is in a field of 2^4571 elements.", "anchors": ["tests/prover.rs: Bls12_381", "src/generator.rs: CRS", "src/statement.rs: PPE, MSMEG1, MSMEG2, QuadEqu", "src/prover/prove.rs: CProof", "src/verifier.rs: verify"]}
{"id": "C122", "title": "Computing with coordinates is computing with the group elements they stand for", "statement": "On every short Weierstrass curve y^2 = x^3 + b of characteristic other than 2, the formulas for Jacobian coordinates that commit, prove, verify and CRS generation run (conversion, doubling, addition, mixed addition, negation, equality, multiplication by a scalar) compute coordinates of the sum, the negative and the multiple of the points, in all cases: equal points, opposite points, zero. The multiplication by scalars that splits them with the endomorphism of BLS12-381 is right on the group for every scalar below the order, and computes the multiple of the projection to the group off it. So CRS generation, commit, prove, commit_and_prove and verify, run on coordinates of points in the groups and products in the target group, give the coordinates of what they give on group elements, and with BLS12-381 everything proved for group elements (an honest proof is accepted, an accepted proof is proved) holds for coordinates, from the bytes.", "quantifier": "all coordinates, points, scalars, curves y^2 = x^3 + b; all CRSs, equations, witnesses and proofs over the groups, all random values, all schedules, all pairings of coordinates that represent a bilinear map, both methods of multiplication", "why_tests_cant": "There are 2^1143 triples of coordinates over the field of BLS12-381, and the special cases of the formulas are met by random inputs with negligible probability.", "anchors": ["src/data_structures.rs: into_group, Com1, Com2, vec_mul, matrix_mul", "src/generator.rs: generate_crs", "src/prover/commit.rs: batch_commit_G1, batch_commit_G2", "src/prover/prove.rs: prove, commit_and_prove", "src/verifier.rs: verify", "tests/prover.rs: Bls12_381"]}
{"id": "C123", "title": "The pairing of BLS12-381 is a pairing", "statement": "The pairing of the curve used by the tests and benchmarks, computed by Miller's loop over the lines of the doublings and additions and by the final exponentiation, never fails on points of the groups, lies in the target group, is additive in both arguments, and is zero only if one of the points is. For all coordinates, on the curves or off them, pairing many points at once gives the sum of the pairings, whatever their number, and panics if the numbers of points differ; the final exponentiation fails for zero only and is the power with exponent 3 (p^12 - 1) / r. So with BLS12-381 an honest proof is accepted, and an accepted proof is proved, from the bytes, with nothing assumed of the pairing.", "quantifier": "all points of both groups, all coordinates, lists of points of all lengths, all elements of the target field; all CRSs, equations, witnesses, messages, random values and schedules", "why_tests_cant": "The groups have more than 2^254 elements each; a test checks bilinearity on a few random points, and cannot show that no pair of points makes the loop meet a zero or the pairing vanish.", "anchors": ["src/data_structures.rs: pairing, pairing_sum", "src/generator.rs: generate_crs", "src/verifier.rs: verify", "tests/prover.rs: Bls12_381"]}
{"id": "C124", "title": "When the pairing panics, verification panics, and never otherwise", "statement": "With BLS12-381, for points of the curves, in the groups or not, the pairing panics exactly when neither point is zero and 13 times the second is; pairing many points panics exactly when one pair does. The verifier and the CRS generator that panic where the pairing panics agree, for all coordinates, on the curves or off them, with those for which the pairing always has a value, unless they panic. On what is read with validation, and on what honest parties compute, they never panic because of the pairing. But replacing one point of a message by a point of order 13 gives bytes that are read without validation and make the verifier panic instead of returning false.", "quantifier": "all points of both curves, lists of pairs of all lengths, all coordinates; all CRSs, equations, messages, bytes, random values and schedules", "why_tests_cant": "Points of order 13 are 13^2 - 1 at most among more than 2^700 points of the second curve, so that random tests never meet one; that no other point of the curve makes the pairing panic is a statement on all points.", "anchors": ["src/data_structures.rs: pairing, pairing_sum", "src/generator.rs: generate_crs", "src/verifier.rs: verify", "tests/prover.rs: Bls12_381"]}
{"id": "C125", "title": "Several equations about the same variables, from values to bytes and back, with BLS12-381", "statement": "A program commits once to lists of variables, proves any number of equations of any of the four kinds about them, and sends commitments and proofs as bytes, without the recorded randomness. It computes on coordinates what it computes on elements of the groups. If the values satisfy all equations, it does not panic and a receiver who reads the bytes, in either mode, and verifies every equation accepts. If a receiver who validates accepts any bytes, their commitments open to one value of each variable, and these values satisfy all the equations at once; an attacker who chooses equations and bytes after seeing the CRS escapes this with probability less than 1/2^253. What can be told from the bytes about which solution was used, or that a simulator without a solution could not have sent, is bounded by the advantage against SXDH plus 1/2^253.", "quantifier": "all lists of equations of all kinds and lengths, all values, CRSs, random values, schedules, bytes, attackers and distinguishers", "why_tests_cant": "Soundness speaks about every string of bytes that is accepted and hiding about every distinguisher; tests check a few honest proofs of one equation each, and never several equations about the same commitments.", "anchors": ["src/prover/prove.rs: commit_and_prove, prove", "src/prover/commit.rs: batch_commit_G1, batch_commit_G2, batch_commit_scalar_to_B1, batch_commit_scalar_to_B2", "src/verifier.rs: verify", "src/generator.rs: generate_crs", "tests/prover.rs: Bls12_381"]}
{"id": "C126", "title": "Elements of the fields as words of 64 bits in Montgomery form", "statement": "Scalars and coordinates are arrays of words. Every residue has exactly one array, so comparing arrays is comparing residues. Adding, subtracting, negating, doubling, multiplying, squaring, inverting and summing products with words and carries gives reduced arrays for the sum, difference, negative, double, product, square, inverse and sum of products; no carry is lost, no sum of carries overflows, and the loop of the inverse ends. Numbers below the modulus are taken, all others refused; elements are ordered, written and read, in both byte orders, as the numbers they stand for; and the words that are drawn are the words of the element drawn. Both moduli of BLS12-381 are of this kind.", "quantifier": "all odd moduli with a spare bit, of any number of words, all elements, numbers, bytes and lists of products", "why_tests_cant": "A lost carry shows in a fraction of about 1/2^64 of the inputs, or only when a word is 0 or has all bits set; tests draw a few elements.", "anchors": ["src/data_structures.rs: Fr, Mul, Add, Neg for Com1, Com2, Fr matrices", "src/prover/commit.rs: batch_commit_scalar_to_B1, batch_commit_scalar_to_B2", "src/verifier.rs: verify", "Cargo.toml: ark-ff", "tests/prover.rs: Bls12_381"]}
{"id": "C127", "title": "The pairing computed in coordinates, down to words", "statement": "Elements of the extension fields are pairs and triples, and are multiplied, squared, inverted, conjugated and raised to powers of the characteristic by formulas and tables that save work. Whatever computes in the prime field, the formulas compute in the extension fields: sums, products, squares, inverses (which fail for 0 only), products with sparse elements, Frobenius maps with the tables of the library. The special square and the special power with signed digits are right in the cyclotomic subgroup, and the final exponentiation uses them only there. So multi_pairing computed with words of 64 bits from beginning to end gives, for points of the groups of BLS12-381, the words of the sum of the pairings, and for other points of the curves panics exactly when the computation with field elements does.", "quantifier": "all elements of the fields, all exponents, all coordinates on the curves or not, all lists of points, all ways to compute in a prime field with that many elements", "why_tests_cant": "The formulas agree with the field operations on an algebraic identity in up to twelve unknowns; the special square is wrong outside of a subgroup, so only a proof shows that it is never used there.", "anchors": ["src/data_structures.rs: ComT::pairing, ComT::pairing_sum", "src/generator.rs: CRS::generate_crs", "src/verifier.rs: verify", "Cargo.toml: ark-ff, ark-ec", "tests/prover.rs: Bls12_381"]}
{"id": "C128", "title": "Points, proofs and their verification in words", "statement": "With coordinates held in words of 64 bits, the formulas of the library for points double, add, subtract, negate, compare and multiply points of the curves, equal, opposite and zero ones included; converting to affine coordinates never unwraps a missing inverse; the tests for the subgroups give what they give for field elements. So generate_crs started from generators in words gives the words of the CRS, the prover working with words gives the words of the proof and draws and panics as the one over the groups, and verify working with words returns what it returns for the elements of the groups. From the bytes: an equation and a message that are read with validation and accepted in words are proved, and honest messages made in words are accepted.", "quantifier": "all coordinates on the curves, all scalars, all schedules, all statements and witnesses, all CRSs, all messages, all bytes", "why_tests_cant": "Formulas have exceptional cases at a few of 2^381 points, and a result in words that is wrong once in 2^64 calls is not met by tests.", "anchors": ["src/data_structures.rs: Com1, Com2, ComT", "src/generator.rs: CRS::generate_crs", "src/verifier.rs: verify", "src/prover/prove.rs: commit_and_prove", "Cargo.toml: ark-ec", "tests/prover.rs: Bls12_381"]}
{"id": "C129", "title": "Scalars in words: nothing but 64-bit words, from the bytes to the verdict", "statement": "The scalars of BLS12-381 held in four words of 64 bits in Montgomery form, with the word programs of the library for their operations, are a field; what into_bigint gives for them, walked from the highest set bit, multiplies points as the scalars do; they are written and read as the bytes of their values, and bytes of a number that is not below the order are refused. So generate_crs, the prover and verify, with both points and scalars in words, give what they give for the elements of the groups and of the field: honest proofs of statements of any number of equations are accepted, with the same draws and panics, and what is read with validation and accepted is proved.", "quantifier": "all scalars, all coordinates on the curves, all schedules, all statements and witnesses, all CRSs, all messages, all bytes, all lists of words for the walk over bits", "why_tests_cant": "A carry lost in one of 2^64 products of words, or a wrong bit in the walk over a scalar with a zero word, is not met by tests that draw scalars at random.", "anchors": ["src/data_structures.rs: Com1, Com2, ComT", "src/generator.rs: CRS::generate_crs", "src/verifier.rs: verify", "src/prover/prove.rs: commit_and_prove", "Cargo.toml: ark-ff, ark-ec", "tests/prover.rs: Bls12_381"]}
{"id": "C130", "title": "Bytes into words and words into bytes: points, target elements, equations, CRSs, messages and random draws of BLS12-381", "statement": "Square roots computed with words never panic and are found whenever there is one, in the field of coordinates and in its quadratic extension. With them, points and target elements are read from bytes straight into words, and written from words, as the elements they stand for are: the same bytes are accepted, the same are refused, with the same errors. So a verifier that holds nothing but words, from the bytes on, gives the answers and the errors of the one over the fields; what it accepts is proved, and what an honest prover made in words and wrote is accepted. Scalars, coordinates and generators drawn as words from the random number generator are those drawn over the fields, using as many words of it, and generate_crs in words gives the CRS of the groups.", "quantifier": "all bytes, all words, all compression and validation modes, all exponents, all schedules, all random number generators and numbers of attempts, all equations, witnesses and messages", "why_tests_cant": "The bytes of a point have 384 or 768 bits, and that a square root panics or picks the wrong sign, or that a comparison is wrong in one limb, concerns a part of them that tests do not meet.", "anchors": ["src/data_structures.rs: Com1, Com2 CanonicalSerialize", "src/generator.rs: CRS::generate_crs", "src/verifier.rs: verify", "src/statement.rs: PPE, MSMEG1, MSMEG2, QuadEqu", "src/prover/commit.rs: CProof", "Cargo.toml: ark-ff, ark-ec, ark-serialize", "tests/prover.rs: Bls12_381"]}
{"id": "C131", "title": "Statements of several equations with nothing but words: completeness, soundness, indistinguishability and zero knowledge of the bytes", "statement": "A statement of any number of equations of the four kinds about shared variables is proved on words of 64 bits, sent as bytes, read into words and verified there. The bytes are those computed on elements of the groups. For values that satisfy all equations the program does not panic and the receiver accepts what is sent, whatever follows it. If a receiver that validates accepts any bytes, the commitments in them open to exactly one value of each variable, and these satisfy all equations; an attacker who sees the CRS first makes it accept otherwise with probability less than 1/2^253. Two solutions are told apart from the bytes with an advantage less than that of attackers against SXDH plus 1/2^253, and for PPEs of target zero the bytes are those of a simulator that does not know the values, up to such a bound.", "quantifier": "all statements and values (also chosen after seeing the CRS), all random draws, all schedules, both compression modes, all bytes, all distinguishers and attackers", "why_tests_cant": "These are about all bytes an attacker could send and all functions of the bytes sent, and about arrays of words of which tests see a few.", "anchors": ["src/verifier.rs: verify", "src/generator.rs: CRS::generate_crs", "src/prover/commit.rs: batch_commit_G1, batch_commit_scalar_to_B1, batch_commit_G2, batch_commit_scalar_to_B2", "src/prover/prove.rs: CProof, EquProof", "src/statement.rs: PPE, MSMEG1, MSMEG2, QuadEqu", "tests/prover.rs: Bls12_381"]}
