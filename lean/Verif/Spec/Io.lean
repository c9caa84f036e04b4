import Verif.Model.Io
import Verif.Spec.Serialize

/-! # What writers receive and readers deliver, compared with byte strings -/

namespace GS

/-- All runs of `c` with any writer and reader, described by the methods `d` for byte strings. -/
structure IoCodec.Serves {α : Type} (c : IoCodec α) (d : Codec α) : Prop where
  /-- after `Ok(())` the writer has accepted exactly the serialization -/
  write_ok : ∀ m x acc, WriteRun (c.ser m x) acc .ok ↔ acc = d.ser m x
  /-- after `Err(_)` it has accepted part of it, and every part that is not all of it is possible -/
  write_err : ∀ m x acc, WriteRun (c.ser m x) acc .err ↔ ∃ t, t ≠ [] ∧ d.ser m x = acc ++ t
  /-- after a crash it has accepted some initial part of it -/
  write_crash : ∀ m x acc, WriteRun (c.ser m x) acc .crash ↔ ∃ t, d.ser m x = acc ++ t
  /-- a reader that does not fail gives the value that the bytes give, whatever the pieces, and no byte more is read -/
  read_ok : ∀ m v bs x rest, (c.de m v).Run False bs (.ok x) rest ↔ d.de m v bs = .ok (x, rest)
  /-- and the error that the bytes give -/
  read_err : ∀ m v bs err, (∃ rest, (c.de m v).Run False bs (.error err) rest) ↔ d.de m v bs = .error err
  /-- a failing reader leads to an I/O error or to nothing new -/
  read_fault : ∀ m v bs r rest, (c.de m v).Run True bs r rest → r = .error .ioError ∨ (c.de m v).Run False bs r rest

end GS
