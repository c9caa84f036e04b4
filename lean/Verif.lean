import Verif.Props.Completeness
import Verif.Props.Soundness
import Verif.Props.Degenerate
import Verif.Props.Matrices
import Verif.Props.Groups
import Verif.Props.Keys
import Verif.Props.Commitments
import Verif.Props.Randomness
import Verif.Props.Hiding
import Verif.Props.Simulation
import Verif.Props.Verification
import Verif.Props.Accepted
import Verif.Props.Sxdh
import Verif.Props.Serialization
import Verif.Props.Leak
import Verif.Props.Joint
import Verif.Props.RandLeak
import Verif.Props.Extraction
import Verif.Props.Refresh
import Verif.Props.Concurrency
import Verif.Props.Unwind
import Verif.Props.Linear
import Verif.Props.Published
import Verif.Props.Equality
import Verif.Props.Variables
import Verif.Props.Probability
import Verif.Props.Documented
import Verif.Props.CrossKind
import Verif.Props.Frame
import Verif.Props.Tamper
import Verif.Props.Convert
import Verif.Props.Io
import Verif.Check.UnitTests
import Verif.Props.Calls
import Verif.Props.Mirror
import Verif.Props.ComGame
import Verif.Props.Counts
import Verif.Props.Fresh
import Verif.Spec.Transport
import Verif.Props.Transport
import Verif.Spec.Reuse
import Verif.Props.Reuse
import Verif.Model.Trace
import Verif.Spec.Trace
import Verif.Props.Trace
import Verif.Props.Cost
import Verif.Spec.AnyCrs
import Verif.Lemmas.AnyKey
import Verif.Lemmas.AnySound
import Verif.Lemmas.AnyWI
import Verif.Props.AnyCrs
import Verif.Spec.Replay
import Verif.Lemmas.TiedEqu
import Verif.Lemmas.Replay
import Verif.Props.Replay
import Verif.Spec.Twice
import Verif.Lemmas.Twice
import Verif.Props.Twice
import Verif.Spec.Seeded
import Verif.Props.Seeded
import Verif.Spec.Session
import Verif.Lemmas.Session
import Verif.Props.Session
import Verif.Model.Raw
import Verif.Model.RawProve
import Verif.Spec.Raw
import Verif.Props.Raw
import Verif.Props.RawProve
import Verif.Props.RawSecond
import Verif.Props.RawScalars
import Verif.Spec.Selective
import Verif.Props.Selective
import Verif.Model.Debug
import Verif.Spec.Debug
import Verif.Lemmas.Debug
import Verif.Props.Debug
import Verif.Spec.Adaptive
import Verif.Lemmas.Adaptive
import Verif.Props.Adaptive
import Verif.Spec.AdaptiveZk
import Verif.Lemmas.AdaptiveZk
import Verif.Props.AdaptiveZk
import Verif.Model.Message
import Verif.Spec.Message
import Verif.Lemmas.Message
import Verif.Props.Message
import Verif.Model.Alloc
import Verif.Spec.Alloc
import Verif.Lemmas.Alloc
import Verif.Props.Alloc
import Verif.Spec.Encoding
import Verif.Lemmas.Encoding
import Verif.Props.Encoding
import Verif.Model.Element
import Verif.Spec.Element
import Verif.Lemmas.Element
import Verif.Props.Element
import Verif.Spec.EncodedMessage
import Verif.Props.EncodedMessage
import Verif.Spec.Sizes
import Verif.Props.Sizes
import Verif.Spec.Mismatch
import Verif.Props.Mismatch
import Verif.Spec.Derived
import Verif.Props.Derived
import Verif.Model.Bls
import Verif.Spec.Bls
import Verif.Props.Bls
import Verif.Model.Sample
import Verif.Spec.Sample
import Verif.Props.Sample
import Verif.Model.Tests
import Verif.Spec.Tests
import Verif.Props.Tests
import Verif.Model.Bench
import Verif.Props.Bench
import Verif.Props.Curve
import Verif.Props.Sampled
import Verif.Model.Bls381
import Verif.Lemmas.Jacobian
import Verif.Lemmas.Prime381
import Verif.Lemmas.Hasse
import Verif.Lemmas.Twist
import Verif.Lemmas.Eisenstein
import Verif.Lemmas.BlsG1
import Verif.Lemmas.BlsG2
import Verif.Lemmas.BlsField
import Verif.Spec.Bls381
import Verif.Lemmas.Bls381
import Verif.Props.Bls381
import Verif.Model.Target
import Verif.Lemmas.Target
import Verif.Spec.Target
import Verif.Lemmas.Statement
import Verif.Props.Target
import Verif.Model.Coord
import Verif.Spec.Coord
import Verif.Lemmas.Coord
import Verif.Lemmas.RawVerify
import Verif.Lemmas.CoordRep
import Verif.Props.Coord
import Verif.Model.Miller
import Verif.Spec.Miller
import Verif.Lemmas.Cocycle
import Verif.Lemmas.Lines
import Verif.Lemmas.MillerAbs
import Verif.Lemmas.Tate
import Verif.Lemmas.Ate
import Verif.Lemmas.Miller
import Verif.Lemmas.FinalExp
import Verif.Lemmas.AteBls
import Verif.Lemmas.MillerBls
import Verif.Lemmas.Kron
import Verif.Lemmas.PairGen
import Verif.Lemmas.PairBls
import Verif.Lemmas.PairSum
import Verif.Props.Miller
import Verif.Model.Ark
import Verif.Spec.Ark
import Verif.Lemmas.CurvePanic
import Verif.Lemmas.Ark
import Verif.Props.Ark
import Verif.Spec.Sent
import Verif.Lemmas.Sent
import Verif.Props.Sent
import Verif.Model.Words
import Verif.Spec.Words
import Verif.Lemmas.Words
import Verif.Lemmas.WordsField
import Verif.Props.Words
import Verif.Model.Tower
import Verif.Spec.Tower
import Verif.Lemmas.Tower
import Verif.Lemmas.TowerCyc
import Verif.Lemmas.TowerExp
import Verif.Lemmas.TowerPair
import Verif.Spec.TowerWords
import Verif.Props.Tower
import Verif.Model.TowerPoint
import Verif.Spec.TowerPoint
import Verif.Lemmas.TowerPoint
import Verif.Props.TowerPoint
import Verif.Model.Bits
import Verif.Lemmas.Bits
import Verif.Spec.ScalarWords
import Verif.Props.ScalarWords
import Verif.Model.WordPoints
import Verif.Spec.CodecMaps
import Verif.Lemmas.CodecMaps
import Verif.Lemmas.WordPoints
import Verif.Spec.WordPoints
import Verif.Props.WordPoints
import Verif.Props.WordSent
