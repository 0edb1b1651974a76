import Verif.Model.Base

/-!
# What a read-only file is

A content and a position.
-/

namespace Wifinfo.Spec

/-- From where an offset counts. -/
inductive Whence
  | start | here | finish
deriving DecidableEq, Repr

/-- What a program can do with an open file: read at most `size` bytes into a buffer that holds `buf`
and whose address is `align` modulo 4, or move by a 32-bit offset. -/
inductive FileOp
  | read (align : Nat) (buf : Str) (size : Nat)
  | seek (offset : UInt32) (whence : Whence)

/-- What it sees. -/
inductive FileRes
  /-- the buffer and the number of bytes read -/
  | got (buf : Str) (n : Nat)
  /-- if the seek succeeds -/
  | sought (ok : Bool)
deriving DecidableEq, Repr

/-- The 32-bit offset as a signed number. -/
def signed (o : UInt32) : Int := if o.toNat < 2147483648 then o.toNat else (o.toNat : Int) - 4294967296

/-- Where a seek aims. -/
def aim (content : Str) (pos : Nat) (o : UInt32) : Whence → Int
  | .start => o.toNat
  | .here => pos + signed o
  | .finish => content.length - o.toNat

/-- If a target is inside the file; the end is allowed only from the end. -/
def inside (content : Str) (t : Int) : Whence → Bool
  | .finish => 0 ≤ t ∧ t ≤ content.length
  | _ => 0 ≤ t ∧ t < content.length

/-- One operation on a file at a position: what is seen, the new position. -/
def fileStep (content : Str) (pos : Nat) : FileOp → FileRes × Nat
  | .read _ buf size =>
    let got := (content.drop pos).take size
    (.got (got ++ buf.drop got.length) got.length, pos + got.length)
  | .seek o w =>
    if inside content (aim content pos o w) w then (.sought true, (aim content pos o w).toNat)
    else (.sought false, pos)

/-- A sequence of operations: what is seen and the position after each. -/
def fileRun (content : Str) : Nat → List FileOp → List (FileRes × Nat)
  | _, [] => []
  | pos, o :: r => fileStep content pos o :: fileRun content (fileStep content pos o).2 r

/-- The buffer of a read has room. -/
def FileOp.Valid : FileOp → Prop
  | .read _ buf size => size ≤ buf.length ∧ buf.length < 2147483648
  | .seek _ _ => True

end Wifinfo.Spec
