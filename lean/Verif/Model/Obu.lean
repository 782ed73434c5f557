import Verif.Model.SeqHeader
/-!
# Model of internal/obu/obu.go and internal/parser/parser.go

The two payload parsers that live in other packages (`uncompressedheader.NewUncompressedHeader` and
`tilegroup.NewTileGroup`) are parameters, together with the types they produce and the part of the
decoder state only they touch: every theorem holds for *all* such parsers, in particular the real
ones.
-/
namespace Gov1

/-- The payload parsers and the types they work on. -/
structure Codec where
  /-- `uncompressedheader.UncompressedHeader` -/
  UH : Type
  /-- `tilegroup.TileGroup` -/
  TG : Type
  /-- the fields of `state.State` not listed in `Gov1.State`, and the package-level variables -/
  R : Type
  /-- Go zero values -/
  zeroUH : UH
  zeroTG : TG
  startR : R
  /-- A new `state.State{}`: all of `R` gets zero values but for what lives in package-level variables (the CDF
  tables, which the slices of the state refer to). -/
  newR : R → R
  /-- `uncompressedheader.NewUncompressedHeader(h, sh, b, state)` -/
  parseUH : Header → SeqHeader → State × R → BM (UH × (State × R))
  /-- field `ShowExistingFrame` -/
  showExisting : UH → Bool
  /-- `tilegroup.NewTileGroup(sz, b, state, uh, sh)` -/
  tileGroup : Int → State × R → UH → SeqHeader → BM (TG × (State × R))

/-- internal/obu/obu.go:17-23 `Obu`. -/
structure Obu (C : Codec) where
  size : Int
  header : Header
  sequenceHeader : SeqHeader
  uncompressedHeader : C.UH
  tileGroup : C.TG

/-- internal/obu/obu.go:109-127 `ParseFrameHeader` (with `FrameHeaderCopy`, 130-133, and
`DecodeFrameWrapup`, uncompressed_header.go:1330-1332, which both panic). -/
def parseFrameHeader (C : Codec) (h : Header) (sh : SeqHeader) (st : State × C.R) :
    BM (C.UH × (State × C.R)) :=
  if st.1.seenFrameHeader then BM.fail (.explicit "not implemented")
  else do
    let (uh, st) ← C.parseUH h sh ({ st.1 with seenFrameHeader := true }, st.2)
    if C.showExisting uh then BM.fail (.explicit "not implemented")
    else pure (uh, ({ st.1 with tileNum := 0, seenFrameHeader := true }, st.2))

/-- Loop of internal/obu/obu.go:136-141 in `paddingObu`.  Each iteration consumes a byte, so fuel
bounds the bytes of the stream; running out of it is the `hang` fault (proved impossible). -/
def paddingLoop : Nat → BM Unit
  | 0 => BM.fail .hang
  | fuel + 1 => do
    let byte ← F 8
    if byte != 0 then paddingLoop fuel else pure ()

/-- internal/obu/obu.go:136-143 `paddingObu`. -/
def paddingObu : BM Unit := fun s =>
  (do
    paddingLoop (s.data.length + 1)
    let p ← BM.getPos
    BM.setPos (p - 8)) s

/-- internal/obu/obu.go:93-106 `newFrame`. -/
def newFrame (C : Codec) (sz : Int) (h : Header) (sh : SeqHeader) (st : State × C.R) :
    BM (C.UH × C.TG × (State × C.R)) := do
  let startBitPos ← BM.getPos
  let (uh, st) ← parseFrameHeader C h sh st
  byteAlignment
  let endBitPos ← BM.getPos
  let headerBytes : Int := ((endBitPos : Int) - startBitPos).tdiv 8
  let (tg, st) ← C.tileGroup (sz - headerBytes) st uh sh
  pure (uh, tg, st)

/-- internal/obu/obu.go:46-53: the OBU is dropped when it has an extension, is neither a sequence
header nor a temporal delimiter, and is not in the selected operating point. -/
def dropObu (idc : Nat) (h : Header) : Bool :=
  h.type != OBU_SEQUENCE_HEADER && h.type != OBU_TEMPORAL_DELIMITER && idc != 0 && h.extensionFlag &&
  (((idc >>> h.extensionHeader.temporalID) % 2 == 0) ||
   ((idc >>> (h.extensionHeader.spatialID + 8)) % 2 == 0))

/-- internal/obu/obu.go:62-79, the `switch` on the OBU type. -/
def obuPayload (C : Codec) (o : Obu C) (st : State × C.R) : BM (Obu C × (State × C.R)) :=
  if o.header.type = OBU_SEQUENCE_HEADER then do
    let (sh, s1) ← newSequenceHeader st.1
    pure ({ o with sequenceHeader := sh }, (s1, st.2))
  else if o.header.type = OBU_TEMPORAL_DELIMITER then
    pure (o, ({ st.1 with seenFrameHeader := false }, st.2))
  else if o.header.type = OBU_FRAME_HEADER then do
    let (uh, st) ← parseFrameHeader C o.header o.sequenceHeader st
    pure ({ o with uncompressedHeader := uh }, st)
  else if o.header.type = OBU_REDUNDANT_FRAME_HEADER then do
    let (_, st) ← parseFrameHeader C o.header o.sequenceHeader st
    pure (o, st)
  else if o.header.type = OBU_FRAME then do
    let (uh, tg, st) ← newFrame C o.size o.header o.sequenceHeader st
    pure ({ o with uncompressedHeader := uh, tileGroup := tg }, st)
  else if o.header.type = OBU_PADDING then do
    paddingObu
    pure (o, st)
  else if o.header.type = OBU_TILE_GROUP then do
    let (tg, st) ← C.tileGroup o.size st o.uncompressedHeader o.sequenceHeader
    pure ({ o with tileGroup := tg }, st)
  else BM.fail (.explicit "not implemented")

/-- internal/obu/obu.go:25-89 `NewObu`/`build`.  The dropped OBU's jump cannot go below 0: a negative
size is at least minus the header just read. -/
def newObu (C : Codec) (sz : Int) (st : State × C.R) (sh : SeqHeader) (uh : C.UH) :
    BM (Obu C × (State × C.R)) := do
  let h ← newHeader
  let size : Int ← (if h.hasSizeField then do
      let n ← leb128
      pure (n : Int)
    else pure (sz - 1 - (if h.extensionFlag then 1 else 0)))
  let startPosition ← BM.getPos
  let o : Obu C := { size := size, header := h, sequenceHeader := sh, uncompressedHeader := uh,
                     tileGroup := C.zeroTG }
  if dropObu st.1.operatingPointIdc h then do
    BM.setPos ((startPosition : Int) + size * 8).toNat
    pure (o, st)
  else do
    let (o, st) ← obuPayload C o st
    let endPosition ← BM.getPos
    if size > 0 ∧ h.type ≠ OBU_TILE_GROUP ∧ h.type ≠ OBU_TILE_LIST ∧ h.type ≠ OBU_FRAME then do
      trailingBits (size * 8 - ((endPosition : Int) - startPosition))
      pure (o, st)
    else pure (o, st)

/-- internal/parser/parser.go:14-19 `Parser`, without the stream.  `rest` is not a field of the Go struct: it holds the
package-level variables between frame units. -/
structure Parser (C : Codec) where
  rest : C.R
  sequenceHeader : SeqHeader := {}
  uncompressedHeader : C.UH
  obus : List (Obu C) := []

/-- Loop of internal/parser/parser.go:42-60 in `frameUnit`.  `sz` decreases by at least one per
iteration (a LEB128 takes at least one byte), so fuel `sz` suffices; running out of it is the `hang`
fault (proved impossible). -/
def frameUnitLoop (C : Codec) : Nat → Int → State × C.R → Parser C → BM (Parser C)
  | fuel, sz, st, p =>
    if sz > 0 then
      match fuel with
      | 0 => BM.fail .hang
      | fuel + 1 => do
        let obuLength ← leb128
        let n ← BM.getLeb
        let sz := sz - n
        let (o, st) ← newObu C obuLength st p.sequenceHeader p.uncompressedHeader
        let p := { p with obus := p.obus ++ [o] }
        let p :=
          if o.header.type = OBU_SEQUENCE_HEADER then { p with sequenceHeader := o.sequenceHeader }
          else if o.header.type = OBU_FRAME_HEADER then
            { p with uncompressedHeader := o.uncompressedHeader }
          else p
        frameUnitLoop C fuel (sz - obuLength) st p
    else pure { p with rest := st.2 }

/-- internal/parser/parser.go:40-61 `frameUnit(sz)`: each frame unit starts from a zero state (line 41); only
package-level variables remain. -/
def frameUnit (C : Codec) (sz : Int) (p : Parser C) : BM (Parser C) :=
  frameUnitLoop C sz.toNat sz ({}, C.newR p.rest) p

/-- Loop of internal/parser/parser.go:30-37 `temporalUnit(sz)`; fuel as in `frameUnitLoop`. -/
def temporalUnitLoop (C : Codec) : Nat → Int → Parser C → BM (Parser C)
  | fuel, sz, p =>
    if sz > 0 then
      match fuel with
      | 0 => BM.fail .hang
      | fuel + 1 => do
        let frameUnitSize ← leb128
        let n ← BM.getLeb
        let sz := sz - n
        let p ← frameUnit C frameUnitSize p
        temporalUnitLoop C fuel (sz - frameUnitSize) p
    else pure p

/-- internal/parser/parser.go:30-37 `temporalUnit(sz)`. -/
def temporalUnit (C : Codec) (sz : Int) (p : Parser C) : BM (Parser C) :=
  temporalUnitLoop C sz.toNat sz p

/-- Loop of internal/parser/parser.go:64-72 `bitstream()`; each iteration consumes at least one
byte or panics; the fuel is the number of bytes of the stream plus two. -/
def bitstreamLoop (C : Codec) : Nat → Parser C → BM (Parser C)
  | fuel, p => fun s =>
    if moreData s then
      match fuel with
      | 0 => .error .hang
      | fuel + 1 => (do
        let sz ← leb128
        let p ← temporalUnit C sz p
        bitstreamLoop C fuel p) s
    else .ok (p, s)

/-- internal/parser/parser.go:21-27, 64-72 `NewParser` and `bitstream()`: parse a whole stream and
return its OBUs. -/
def parseStream (C : Codec) : BM (List (Obu C)) := fun s =>
  (do
    let p ← bitstreamLoop C (s.data.length + 2) { rest := C.startR, uncompressedHeader := C.zeroUH }
    pure p.obus) s

end Gov1
