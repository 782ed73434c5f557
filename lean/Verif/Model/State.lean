import Verif.Model.Header
/-! # Model of the parts of internal/state/state.go used by the header parsers -/
namespace Gov1

/-- internal/state/state.go `State`, restricted to the scalar fields that cross OBU boundaries.
(The prediction, transform and filter work arrays of the same struct are modelled where used.) -/
structure State where
  /-- `OperatingPointIdc` -/
  operatingPointIdc : Nat := 0
  /-- `SeenFrameHeader` -/
  seenFrameHeader : Bool := false
  /-- `TileNum` -/
  tileNum : Nat := 0
  deriving DecidableEq, Repr

end Gov1
