import Verif.Model.Base

/-!
# Specification of teleinfo frames

What travels on the wire, what a frame means, and what a meter sends — written from the Enedis
description quoted in teleinfo.h:17-31, without any definition of the decoder's model.
-/

namespace Wifinfo.Spec
open Wifinfo

/-- Bytes that structure a frame: STX 2, ETX 3, EOT 4, LF 10, CR 13. -/
def isData (b : Byte) : Bool := b != 2 && b != 3 && b != 4 && b != 10 && b != 13

/-- One group as it is on the wire between LF and CR: checksummed text, last separator,
checksum byte. -/
structure RawGroup where
  text : Str
  sep : Byte
  check : Byte
deriving DecidableEq, Repr

/-- Sum of byte values. -/
def byteSum (x : Str) : Nat := (x.map UInt8.toNat).sum

/-- A correct group: only data bytes, at least two bytes of text, right checksum. -/
structure RawGroup.Good (g : RawGroup) : Prop where
  data : ∀ b ∈ g.text ++ [g.sep, g.check], isData b = true
  len : 2 ≤ g.text.length
  sum : g.check.toNat = byteSum g.text % 64 + 32

/-- The first separator becomes NUL (byte 255 is not a legal character of a frame; after the
first separator such bytes are turned into NUL too). -/
def markSep (sep : Byte) : Str → Str
  | [] => []
  | b :: r => if b = sep then 0 :: r.map (fun c => if c = 255 then 0 else c) else b :: markSep sep r

/-- Trailing dots removed. -/
def dropDots (x : Str) : Str := (x.reverse.dropWhile (· == 46)).reverse

/-- What is kept of a group. -/
def RawGroup.stored (g : RawGroup) : Str := dropDots (markSep g.sep g.text) ++ [0]

/-- What is kept of a list of groups. -/
def storedAll (gs : List RawGroup) : Str := gs.flatMap RawGroup.stored

/-- A group on the wire. -/
def RawGroup.wire (g : RawGroup) : Str := 10 :: g.text ++ [g.sep, g.check, 13]

/-- A frame on the wire. -/
def frameWire (gs : List RawGroup) : Str := 2 :: gs.flatMap RawGroup.wire ++ [3]

/-- Each group, with its separator and checksum, must end before position 348 of the store, the
previous groups having been compacted. -/
def Fits (n : Nat) : List RawGroup → Prop
  | [] => True
  | g :: gs => n + g.text.length + 2 < 348 ∧ Fits (n + g.stored.length) gs

/-- A complete valid frame. -/
structure ValidFrame (gs : List RawGroup) : Prop where
  nonempty : gs ≠ []
  good : ∀ g ∈ gs, g.Good
  fits : Fits 0 gs

/-! ## Meaning of a stored frame -/

/-- Cut a byte sequence into its NUL-terminated strings (an unterminated tail is dropped). -/
def cut : Str → List Str
  | [] => []
  | b :: r =>
    if b = 0 then [] :: cut r
    else match cut r with
      | [] => []
      | s :: ss => (b :: s) :: ss

/-- Group strings two by two. -/
def pairUp : List Str → List (Str × Str)
  | a :: b :: r => (a, b) :: pairUp r
  | _ => []

/-- The label/value pairs of a stored frame. -/
def pairs (content : Str) : List (Str × Str) := pairUp (cut content)

/-- Value of the first pair with this label. -/
def lookup (label : Str) : List (Str × Str) → Option Str
  | [] => none
  | (l, v) :: r => if l = label then some v else lookup label r

/-! ## What a meter sends -/

/-- A group of the meter: label, value and the separator used (space or tab). -/
structure MeterGroup where
  label : Str
  value : Str
  sep : Byte
deriving DecidableEq, Repr

/-- 7-bit printable character. -/
def printable (b : Byte) : Bool := 32 ≤ b && b < 127

/-- What an Enedis meter in historical mode may send in a group. -/
structure MeterGroup.Legal (g : MeterGroup) : Prop where
  sep : g.sep = 32 ∨ g.sep = 9
  label : ∀ b ∈ g.label, printable b = true ∧ b ≠ g.sep
  value : ∀ b ∈ g.value, printable b = true
  nonempty : g.label ≠ []

/-- Enedis checksum, mode 1: label, separator, value. -/
def MeterGroup.raw (g : MeterGroup) : RawGroup :=
  { text := g.label ++ [g.sep] ++ g.value, sep := g.sep,
    check := UInt8.ofNat (byteSum (g.label ++ [g.sep] ++ g.value) % 64 + 32) }

/-- The byte sequence of a meter frame. -/
def meterWire (gs : List MeterGroup) : Str := frameWire (gs.map MeterGroup.raw)

/-- What the user expects to read from that frame. -/
def meterPairs (gs : List MeterGroup) : List (Str × Str) :=
  gs.map fun g => (g.label, dropDots g.value)

/-- Room the decoder needs: total size of the compacted groups so far plus the current group. -/
def meterFits (n : Nat) : List MeterGroup → Prop
  | [] => True
  | g :: gs => n + g.label.length + g.value.length + 3 < 348 ∧
      meterFits (n + g.label.length + (dropDots g.value).length + 2) gs

end Wifinfo.Spec
