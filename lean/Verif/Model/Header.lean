import Verif.Model.Util
/-! # Model of internal/header/header.go -/
namespace Gov1

/-- internal/header/header.go:26-30 `ExtensionHeader`. -/
structure ExtensionHeader where
  temporalID : Nat
  spatialID : Nat
  reserved3Bits : Nat
  deriving DecidableEq, Repr

/-- internal/header/header.go:17-24 `Header`. -/
structure Header where
  forbiddenBit : Bool
  type : Nat
  extensionFlag : Bool
  hasSizeField : Bool
  reservedBit : Bool
  extensionHeader : ExtensionHeader
  deriving DecidableEq, Repr

/-- Go `b.F(1) != 0` / `util.Bool(b.F(1))` (internal/util/util.go:160-162). -/
def flag : BM Bool := do
  let v ← F 1
  pure (v != 0)

/-- internal/header/header.go:62-68 `NewExtensionHeader`. -/
def newExtensionHeader : BM ExtensionHeader := do
  let t ← F 3
  let s ← F 2
  let r ← F 3
  pure { temporalID := t, spatialID := s, reserved3Bits := r }

/-- internal/header/header.go:33-59 `NewHeader`. -/
def newHeader : BM Header := do
  let forbiddenBit ← flag
  let obuType ← F 4
  let extensionFlag ← flag
  let hasSizeField ← flag
  let reservedBit ← flag
  if extensionFlag then do
    let e ← newExtensionHeader
    pure { forbiddenBit := forbiddenBit, type := obuType, extensionFlag := extensionFlag,
           hasSizeField := hasSizeField, reservedBit := reservedBit, extensionHeader := e }
  else
    pure { forbiddenBit := forbiddenBit, type := obuType, extensionFlag := extensionFlag,
           hasSizeField := hasSizeField, reservedBit := reservedBit,
           extensionHeader := { temporalID := 0, spatialID := 0, reserved3Bits := 0 } }

/-- internal/header/header.go:7 -/
def OBU_SEQUENCE_HEADER : Nat := 1
/-- internal/header/header.go:8 -/
def OBU_TEMPORAL_DELIMITER : Nat := 2
/-- internal/header/header.go:9 -/
def OBU_FRAME_HEADER : Nat := 3
/-- internal/header/header.go:10 -/
def OBU_TILE_GROUP : Nat := 4
/-- internal/header/header.go:11 -/
def OBU_METADATA : Nat := 5
/-- internal/header/header.go:12 -/
def OBU_FRAME : Nat := 6
/-- internal/header/header.go:13 -/
def OBU_REDUNDANT_FRAME_HEADER : Nat := 7
/-- internal/header/header.go:14 -/
def OBU_TILE_LIST : Nat := 8
/-- internal/header/header.go:15 -/
def OBU_PADDING : Nat := 15

end Gov1
