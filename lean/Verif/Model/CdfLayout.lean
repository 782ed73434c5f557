import Verif.Model.CdfWiring
import Verif.Model.Rd
/-!
# Shapes of the tile contexts (generated by tools/genlayout.py)

The contexts of a tile are references to the default tables (internal/tilegroup/tile_group.go:480-579,
internal/uncompressedheader/cdf.go:9-135).  `cdfTabs` lists the tables with their outer dimensions and number
of symbols; `cdfNames` the fields `state.Tile<name>Cdf`, the dimensions along which all elements refer to the
same table, and the table.  The two tables that always panic (see C43) and the nil context (see C61) have no
entry, so that reading them is a fault.
-/
namespace Gov1

/-- The outer dimensions of a table: a box, or a table of three dimensions whose part `[i][j]` has
`inner[i][j]` rows. -/
inductive Dims where
  | box (ds : List Nat)
  | ragged (inner : List (List Nat))
  deriving DecidableEq

/-- A table of contexts: Go name, outer dimensions, number of symbols, rows in index order. -/
structure Tab where
  name : String
  dims : Dims
  count : Nat
  rows : List (List Nat)

/-- internal/uncompressedheader/cdf.go:345-13305, the default tables in use; the coefficient tables are those
of quantizer class `k` (cdf.go:107-135). -/
def cdfTabs (k : Fin 4) : List Tab := [
  ⟨"DEFAULT_INTRA_FRAME_Y_MODE_CDF", .box [5, 5], 13, defaultIntraFrameYModeCdf⟩,
  ⟨"DEFAULT_Y_MODE_CDF", .box [4], 13, defaultYModeCdf⟩,
  ⟨"DEFAULT_UV_MODE_CFL_NOT_ALLOWED_CDF", .box [13], 13, defaultUvModeCflNotAllowedCdf⟩,
  ⟨"DEFAULT_UV_MODE_CFL_ALLOWED_CDF", .box [13], 14, defaultUvModeCflAllowedCdf⟩,
  ⟨"DEFAULT_ANGLE_DELTA_CDF", .box [8], 7, defaultAngleDeltaCdf⟩,
  ⟨"DEFAULT_INTRABC_CDF", .box [], 2, defaultIntrabcCdf⟩,
  ⟨"DEFAULT_PARTITION_W8_CDF", .box [4], 4, defaultPartitionW8Cdf⟩,
  ⟨"DEFAULT_PARTITION_W16_CDF", .box [4], 10, defaultPartitionW16Cdf⟩,
  ⟨"DEFAULT_PARTITION_W32_CDF", .box [4], 10, defaultPartitionW32Cdf⟩,
  ⟨"DEFAULT_PARTITION_W64_CDF", .box [4], 10, defaultPartitionW64Cdf⟩,
  ⟨"DEFAULT_PARTITION_W128_CDF", .box [4], 8, defaultPartitionW128Cdf⟩,
  ⟨"DEFAULT_SEGMENT_ID_CDF", .box [3], 8, defaultSegmentIdCdf⟩,
  ⟨"DEFAULT_TX_8X8_CDF", .box [3], 2, defaultTx8x8Cdf⟩,
  ⟨"DEFAULT_TX_16X16_CDF", .box [3], 3, defaultTx16x16Cdf⟩,
  ⟨"DEFAULT_TX_32X32_CDF", .box [3], 3, defaultTx32x32Cdf⟩,
  ⟨"DEFAULT_TX_64X64_CDF", .box [3], 3, defaultTx64x64Cdf⟩,
  ⟨"DEFAULT_TXFM_SPLIT_CDF", .box [21], 2, defaultTxfmSplitCdf⟩,
  ⟨"DEFAULT_FILTER_INTRA_MODE_CDF", .box [], 5, defaultFilterIntraModeCdf⟩,
  ⟨"DEFAULT_FILTER_INTRA_CDF", .box [22], 2, defaultFilterIntraCdf⟩,
  ⟨"DEFAULT_INTERP_FILTER_CDF", .box [16], 3, defaultInterpFilterCdf⟩,
  ⟨"DEFAULT_MOTION_MODE_CDF", .box [22], 3, defaultMotionModeCdf⟩,
  ⟨"DEFAULT_NEW_MV_CDF", .box [6], 2, defaultNewMvCdf⟩,
  ⟨"DFEAULT_ZERO_MV_CDF", .box [2], 2, defaultZeroMvCdf⟩,
  ⟨"DEFAULT_COMPOUND_MODE_CDF", .box [8], 8, defaultCompoundModeCdf⟩,
  ⟨"DEFAULT_DRL_MODE_CDF", .box [3], 2, defaultDrlModeCdf⟩,
  ⟨"DEFAULT_IS_INTER_CDF", .box [4], 2, defaultIsInterCdf⟩,
  ⟨"DEFAULT_COMP_MODE_CDF", .box [5], 2, defaultCompModeCdf⟩,
  ⟨"DEFAULT_SKIP_CDF", .box [3], 2, defaultSkipCdf⟩,
  ⟨"DEFAULT_COMP_REF_CDF", .box [3, 3], 2, defaultCompRefCdf⟩,
  ⟨"DEFAULT_COMP_BWD_REF_CDF", .box [3, 2], 2, defaultCompBwdRefCdf⟩,
  ⟨"DEFAULT_SINGLE_REF_CDF", .box [3, 6], 2, defaultSingleRefCdf⟩,
  ⟨"DEFAULT_MV_JOINT_CDF", .box [], 4, defaultMvJointCdf⟩,
  ⟨"DEFAULT_MV_CLASS_CDF", .box [2], 11, defaultMvClassCdf⟩,
  ⟨"DEFAULT_MV_CLASS0_BIT_CDF", .box [], 2, defaultMvClass0BitCdf⟩,
  ⟨"DEFAULT_MV_FR_CDF", .box [2], 4, defaultMvFrCdf⟩,
  ⟨"DEFAULT_MV_CLASS0_FR_CDF", .box [2, 2], 4, defaultMvClass0FrCdf⟩,
  ⟨"DEFAULT_MV_CLASS0_HP_CDF", .box [], 2, defaultMvClass0HpCdf⟩,
  ⟨"DEFAULT_MV_SIGN_CDF", .box [], 2, defaultMvSignCdf⟩,
  ⟨"DEFAULT_MV_BIT_CDF", .box [10], 2, defaultMvBitCdf⟩,
  ⟨"DEFAULT_MV_HP_CDF", .box [], 2, defaultMvHpCdf⟩,
  ⟨"DEFAULT_PALETTE_Y_MODE_CDF", .box [7, 3], 2, defaultPaletteYModeCdf⟩,
  ⟨"DEFAULT_PALETTE_UV_MODE_CDF", .box [2], 2, defaultPaletteUvModeCdf⟩,
  ⟨"DEFAULT_PALETTE_UV_SIZE_CDF", .box [7], 7, defaultPaletteUvSizeCdf⟩,
  ⟨"DEFAULT_PALETTE_SIZE_2_Y_COLOR_CDF", .box [5], 2, defaultPaletteSize2YColorCdf⟩,
  ⟨"DEFAULT_PALETTE_SIZE_2_UV_COLOR_CDF", .box [5], 2, defaultPaletteSize2UvColorCdf⟩,
  ⟨"DEFAULT_PALETTE_SIZE_3_Y_COLOR_CDF", .box [5], 3, defaultPaletteSize3YColorCdf⟩,
  ⟨"DEFAULT_PALETTE_SIZE_3_UV_COLOR_CDF", .box [5], 3, defaultPaletteSize3UvColorCdf⟩,
  ⟨"DEFAULT_PALETTE_SIZE_4_Y_COLOR_CDF", .box [5], 4, defaultPaletteSize4YColorCdf⟩,
  ⟨"DEFAULT_PALETTE_SIZE_4_UV_COLOR_CDF", .box [5], 4, defaultPaletteSize4UvColorCdf⟩,
  ⟨"DEFAULT_PALETTE_SIZE_5_Y_COLOR_CDF", .box [5], 5, defaultPaletteSize5YColorCdf⟩,
  ⟨"DEFAULT_PALETTE_SIZE_5_UV_COLOR_CDF", .box [5], 5, defaultPaletteSize5UvColorCdf⟩,
  ⟨"DEFAULT_PALETTE_SIZE_6_Y_COLOR_CDF", .box [5], 6, defaultPaletteSize6YColorCdf⟩,
  ⟨"DEFAULT_PALETTE_SIZE_6_UV_COLOR_CDF", .box [5], 6, defaultPaletteSize6UvColorCdf⟩,
  ⟨"DEFAULT_PALETTE_SIZE_7_Y_COLOR_CDF", .box [5], 7, defaultPaletteSize7YColorCdf⟩,
  ⟨"DEFAULT_PALETTE_SIZE_7_UV_COLOR_CDF", .box [5], 7, defaultPaletteSize7UvColorCdf⟩,
  ⟨"DEFAULT_PALETTE_SIZE_8_Y_COLOR_CDF", .box [5], 8, defaultPaletteSize8YColorCdf⟩,
  ⟨"DEFAULT_PALETTE_SIZE_8_UV_COLOR_CDF", .box [5], 8, defaultPaletteSize8UvColorCdf⟩,
  ⟨"DEFAULT_DELTA_Q_CDF", .box [], 4, defaultDeltaQCdf⟩,
  ⟨"DEFAULT_DELTA_LF_CDF", .box [], 4, defaultDeltaLfCdf⟩,
  ⟨"DEFAULT_INTRA_TX_TYPE_SET1_CDF", .box [2, 13], 7, defaultIntraTxTypeSet1Cdf⟩,
  ⟨"DEFAULT_INTRA_TX_TYPE_SET2_CDF", .box [3, 13], 5, defaultIntraTxTypeSet2Cdf⟩,
  ⟨"DEFAULT_INTER_TX_TYPE_SET1_CDF", .box [2], 16, defaultInterTxTypeSet1Cdf⟩,
  ⟨"DEFAULT_INTER_TX_TYPE_SET2_CDF", .box [], 12, defaultInterTxTypeSet2Cdf⟩,
  ⟨"DEFAULT_INTER_TX_TYPE_SET3_CDF", .box [4], 2, defaultInterTxTypeSet3Cdf⟩,
  ⟨"DEFAULT_USE_OBMC_CDF", .box [22], 2, defaultUseObmcCdf⟩,
  ⟨"DEFAULT_INTER_INTRA_CDF", .box [3], 2, defaultInterIntraCdf⟩,
  ⟨"DEFAULT_COMP_REF_TYPE_CDF", .box [5], 2, defaultCompRefTypeCdf⟩,
  ⟨"DEFAULT_CFL_SIGN_CDF", .box [], 8, defaultCflSignCdf⟩,
  ⟨"DEFAULT_UNI_COMP_REF_CDF", .box [3, 3], 2, defaultUniCompRefCdf⟩,
  ⟨"DEFAULT_WEDGE_INTER_INTRA_CDF", .box [22], 2, defaultWedgeInterIntraCdf⟩,
  ⟨"DEFAULT_COMP_GROUP_IDX_CDF", .box [6], 2, defaultCompGroupIdxCdf⟩,
  ⟨"DEFAULT_COMPOUND_IDX_CDF", .box [6], 2, defaultCompoundIdxCdf⟩,
  ⟨"DEFAULT_COMPOUND_TYPE_CDF", .box [22], 2, defaultCompoundTypeCdf⟩,
  ⟨"DEFAULT_INTER_INTRA_MODE_CDF", .box [3], 4, defaultInterIntraModeCdf⟩,
  ⟨"DEFAULT_WEDGE_INDEX_CDF", .box [22], 16, defaultWedgeIndexCdf⟩,
  ⟨"DEFAULT_CFL_ALPHA_CDF", .box [6], 16, defaultCflAlphaCdf⟩,
  ⟨"DEFAULT_USE_WIENER_CDF", .box [], 2, defaultUseWienerCdf⟩,
  ⟨"DEFAULT_USE_SGRPROJ_CDF", .box [], 2, defaultUseSgrprojCdf⟩,
  ⟨"DEFAULT_RESTORATION_TYPE_CDF", .box [], 3, defaultRestorationTypeCdf⟩,
  ⟨"DEFAULT_TXB_SKIP_CDF", .box [5, 13], 2, match k with | 0 => defaultTxbSkipCdf0 | 1 => defaultTxbSkipCdf1 | 2 => defaultTxbSkipCdf2 | 3 => defaultTxbSkipCdf3⟩,
  ⟨"DEFAULT_EOB_PT_16_CDF", .box [2, 2], 5, match k with | 0 => defaultEobPt16Cdf0 | 1 => defaultEobPt16Cdf1 | 2 => defaultEobPt16Cdf2 | 3 => defaultEobPt16Cdf3⟩,
  ⟨"DEFAULT_EOB_PT_32_CDF", .box [2, 2], 6, match k with | 0 => defaultEobPt32Cdf0 | 1 => defaultEobPt32Cdf1 | 2 => defaultEobPt32Cdf2 | 3 => defaultEobPt32Cdf3⟩,
  ⟨"DEFAULT_EOB_PT_64_CDF", .box [2, 2], 7, match k with | 0 => defaultEobPt64Cdf0 | 1 => defaultEobPt64Cdf1 | 2 => defaultEobPt64Cdf2 | 3 => defaultEobPt64Cdf3⟩,
  ⟨"DEFAULT_EOB_PT_128_CDF", .box [2, 2], 8, match k with | 0 => defaultEobPt128Cdf0 | 1 => defaultEobPt128Cdf1 | 2 => defaultEobPt128Cdf2 | 3 => defaultEobPt128Cdf3⟩,
  ⟨"DEFAULT_EOB_PT_256_CDF", .box [2, 2], 9, match k with | 0 => defaultEobPt256Cdf0 | 1 => defaultEobPt256Cdf1 | 2 => defaultEobPt256Cdf2 | 3 => defaultEobPt256Cdf3⟩,
  ⟨"DEFAULT_EOB_PT_512_CDF", .box [2], 10, match k with | 0 => defaultEobPt512Cdf0 | 1 => defaultEobPt512Cdf1 | 2 => defaultEobPt512Cdf2 | 3 => defaultEobPt512Cdf3⟩,
  ⟨"DEFAULT_EOB_PT_1024_CDF", .box [2], 11, match k with | 0 => defaultEobPt1024Cdf0 | 1 => defaultEobPt1024Cdf1 | 2 => defaultEobPt1024Cdf2 | 3 => defaultEobPt1024Cdf3⟩,
  ⟨"DEFAULT_EOB_EXTRA_CDF", .box [5, 2, 9], 2, match k with | 0 => defaultEobExtraCdf0 | 1 => defaultEobExtraCdf1 | 2 => defaultEobExtraCdf2 | 3 => defaultEobExtraCdf3⟩,
  ⟨"DEFAULT_DC_SIGN_CDF", .box [2, 3], 2, match k with | 0 => defaultDcSignCdf0 | 1 => defaultDcSignCdf1 | 2 => defaultDcSignCdf2 | 3 => defaultDcSignCdf3⟩,
  ⟨"DEFAULT_COEFF_BASE_EOB_CDF", .box [5, 2, 4], 3, match k with | 0 => defaultCoeffBaseEobCdf0 | 1 => defaultCoeffBaseEobCdf1 | 2 => defaultCoeffBaseEobCdf2 | 3 => defaultCoeffBaseEobCdf3⟩,
  ⟨"DEFAULT_COEFF_BASE_CDF", match k with | 3 => .ragged [[42, 4, 42], [42, 42], [42, 42], [42, 42], [42, 42]] | _ => .box [5, 2, 42], 4, match k with | 0 => defaultCoeffBaseCdf0 | 1 => defaultCoeffBaseCdf1 | 2 => defaultCoeffBaseCdf2 | 3 => defaultCoeffBaseCdf3⟩,
  ⟨"DEFAULT_COEFF_BR_CDF", .box [5, 2, 21], 4, match k with | 0 => defaultCoeffBrCdf0 | 1 => defaultCoeffBrCdf1 | 2 => defaultCoeffBrCdf2 | 3 => defaultCoeffBrCdf3⟩]

/-- internal/tilegroup/tile_group.go:480-579 with cdf.go:9-135 and internal/state/state.go:135-143, 164: the
fields, their aliased dimensions, the table. -/
def cdfNames : List (String × List Nat × String) := [
  ("IntraFrameYMode", [], "DEFAULT_INTRA_FRAME_Y_MODE_CDF"),
  ("YMode", [], "DEFAULT_Y_MODE_CDF"),
  ("UVModeCflNotAllowed", [], "DEFAULT_UV_MODE_CFL_NOT_ALLOWED_CDF"),
  ("UVModeCflAllowed", [], "DEFAULT_UV_MODE_CFL_ALLOWED_CDF"),
  ("AngleDelta", [], "DEFAULT_ANGLE_DELTA_CDF"),
  ("Intrabc", [], "DEFAULT_INTRABC_CDF"),
  ("PartitionW8", [], "DEFAULT_PARTITION_W8_CDF"),
  ("PartitionW16", [], "DEFAULT_PARTITION_W16_CDF"),
  ("PartitionW32", [], "DEFAULT_PARTITION_W32_CDF"),
  ("PartitionW64", [], "DEFAULT_PARTITION_W64_CDF"),
  ("PartitionW128", [], "DEFAULT_PARTITION_W128_CDF"),
  ("SegmentId", [], "DEFAULT_SEGMENT_ID_CDF"),
  ("Tx8x8", [], "DEFAULT_TX_8X8_CDF"),
  ("Tx16x16", [], "DEFAULT_TX_16X16_CDF"),
  ("Tx32x32", [], "DEFAULT_TX_32X32_CDF"),
  ("Tx64x64", [], "DEFAULT_TX_64X64_CDF"),
  ("TxfmSplit", [], "DEFAULT_TXFM_SPLIT_CDF"),
  ("FilterIntraMode", [], "DEFAULT_FILTER_INTRA_MODE_CDF"),
  ("FilterIntra", [], "DEFAULT_FILTER_INTRA_CDF"),
  ("InterpFilter", [], "DEFAULT_INTERP_FILTER_CDF"),
  ("MotionMode", [], "DEFAULT_MOTION_MODE_CDF"),
  ("NewMv", [], "DEFAULT_NEW_MV_CDF"),
  ("ZeroMv", [], "DFEAULT_ZERO_MV_CDF"),
  ("CompoundMode", [], "DEFAULT_COMPOUND_MODE_CDF"),
  ("DrlMode", [], "DEFAULT_DRL_MODE_CDF"),
  ("IsInter", [], "DEFAULT_IS_INTER_CDF"),
  ("CompMode", [], "DEFAULT_COMP_MODE_CDF"),
  ("Skip", [], "DEFAULT_SKIP_CDF"),
  ("CompRef", [], "DEFAULT_COMP_REF_CDF"),
  ("CompBwdRef", [], "DEFAULT_COMP_BWD_REF_CDF"),
  ("SingleRef", [], "DEFAULT_SINGLE_REF_CDF"),
  ("MvJoint", [2], "DEFAULT_MV_JOINT_CDF"),
  ("MvClass", [2], "DEFAULT_MV_CLASS_CDF"),
  ("MvClass0Bit", [2, 2], "DEFAULT_MV_CLASS0_BIT_CDF"),
  ("MvFr", [2], "DEFAULT_MV_FR_CDF"),
  ("MvClass0Fr", [2], "DEFAULT_MV_CLASS0_FR_CDF"),
  ("MvClass0Hp", [2, 2], "DEFAULT_MV_CLASS0_HP_CDF"),
  ("MvSign", [2, 2], "DEFAULT_MV_SIGN_CDF"),
  ("MvBit", [2, 2], "DEFAULT_MV_BIT_CDF"),
  ("MvHp", [2, 2], "DEFAULT_MV_HP_CDF"),
  ("PaletteYMode", [], "DEFAULT_PALETTE_Y_MODE_CDF"),
  ("PaletteUVMode", [], "DEFAULT_PALETTE_UV_MODE_CDF"),
  ("PaletteUVSize", [], "DEFAULT_PALETTE_UV_SIZE_CDF"),
  ("PaletteSize2YColor", [], "DEFAULT_PALETTE_SIZE_2_Y_COLOR_CDF"),
  ("PaletteSize2UVColor", [], "DEFAULT_PALETTE_SIZE_2_UV_COLOR_CDF"),
  ("PaletteSize3YColor", [], "DEFAULT_PALETTE_SIZE_3_Y_COLOR_CDF"),
  ("PaletteSize3UVColor", [], "DEFAULT_PALETTE_SIZE_3_UV_COLOR_CDF"),
  ("PaletteSize4YColor", [], "DEFAULT_PALETTE_SIZE_4_Y_COLOR_CDF"),
  ("PaletteSize4UVColor", [], "DEFAULT_PALETTE_SIZE_4_UV_COLOR_CDF"),
  ("PaletteSize5YColor", [], "DEFAULT_PALETTE_SIZE_5_Y_COLOR_CDF"),
  ("PaletteSize5UVColor", [], "DEFAULT_PALETTE_SIZE_5_UV_COLOR_CDF"),
  ("PaletteSize6YColor", [], "DEFAULT_PALETTE_SIZE_6_Y_COLOR_CDF"),
  ("PaletteSize6UVColor", [], "DEFAULT_PALETTE_SIZE_6_UV_COLOR_CDF"),
  ("PaletteSize7YColor", [], "DEFAULT_PALETTE_SIZE_7_Y_COLOR_CDF"),
  ("PaletteSize7UVColor", [], "DEFAULT_PALETTE_SIZE_7_UV_COLOR_CDF"),
  ("PaletteSize8YColor", [], "DEFAULT_PALETTE_SIZE_8_Y_COLOR_CDF"),
  ("PaletteSize8UVColor", [], "DEFAULT_PALETTE_SIZE_8_UV_COLOR_CDF"),
  ("DeltaQ", [], "DEFAULT_DELTA_Q_CDF"),
  ("DeltaLF", [], "DEFAULT_DELTA_LF_CDF"),
  ("DeltaLFMulti", [4], "DEFAULT_DELTA_LF_CDF"),
  ("IntraTxTypeSet1", [], "DEFAULT_INTRA_TX_TYPE_SET1_CDF"),
  ("IntraTxTypeSet2", [], "DEFAULT_INTRA_TX_TYPE_SET2_CDF"),
  ("InterTxTypeSet1", [], "DEFAULT_INTER_TX_TYPE_SET1_CDF"),
  ("InterTxTypeSet2", [], "DEFAULT_INTER_TX_TYPE_SET2_CDF"),
  ("InterTxTypeSet3", [], "DEFAULT_INTER_TX_TYPE_SET3_CDF"),
  ("UseObmc", [], "DEFAULT_USE_OBMC_CDF"),
  ("InterIntra", [], "DEFAULT_INTER_INTRA_CDF"),
  ("CompRefType", [], "DEFAULT_COMP_REF_TYPE_CDF"),
  ("CflSign", [], "DEFAULT_CFL_SIGN_CDF"),
  ("UniCompRef", [], "DEFAULT_UNI_COMP_REF_CDF"),
  ("WedgeInterIntra", [], "DEFAULT_WEDGE_INTER_INTRA_CDF"),
  ("CompGroupIdx", [], "DEFAULT_COMP_GROUP_IDX_CDF"),
  ("CompoundIdx", [], "DEFAULT_COMPOUND_IDX_CDF"),
  ("CompoundType", [], "DEFAULT_COMPOUND_TYPE_CDF"),
  ("InterIntraMode", [], "DEFAULT_INTER_INTRA_MODE_CDF"),
  ("WedgeIndex", [], "DEFAULT_WEDGE_INDEX_CDF"),
  ("CflAlpha", [], "DEFAULT_CFL_ALPHA_CDF"),
  ("UseWiener", [], "DEFAULT_USE_WIENER_CDF"),
  ("UseSgrproj", [], "DEFAULT_USE_SGRPROJ_CDF"),
  ("RestorationType", [], "DEFAULT_RESTORATION_TYPE_CDF"),
  ("TxbSkip", [], "DEFAULT_TXB_SKIP_CDF"),
  ("EobPt16", [], "DEFAULT_EOB_PT_16_CDF"),
  ("EobPt32", [], "DEFAULT_EOB_PT_32_CDF"),
  ("EobPt64", [], "DEFAULT_EOB_PT_64_CDF"),
  ("EobPt128", [], "DEFAULT_EOB_PT_128_CDF"),
  ("EobPt256", [], "DEFAULT_EOB_PT_256_CDF"),
  ("EobPt512", [], "DEFAULT_EOB_PT_512_CDF"),
  ("EobPt1024", [], "DEFAULT_EOB_PT_1024_CDF"),
  ("EobExtra", [], "DEFAULT_EOB_EXTRA_CDF"),
  ("DcSign", [], "DEFAULT_DC_SIGN_CDF"),
  ("CoeffBaseEob", [], "DEFAULT_COEFF_BASE_EOB_CDF"),
  ("CoeffBase", [], "DEFAULT_COEFF_BASE_CDF"),
  ("CoeffBr", [], "DEFAULT_COEFF_BR_CDF")]

/-- Position in row-major order of an element of an array, `none` if an index is out of range. -/
def ravel : List Nat → List Int → Option Nat
  | [], [] => some 0
  | d :: ds, i :: is =>
    if 0 ≤ i ∧ i < d then (ravel ds is).map (fun k => i.toNat * ds.prod + k) else none
  | [], _ :: _ => none
  | _ :: _, [] => none

/-- Position in the rows of one part of a ragged table: column `j`, row `c`. -/
def ragRow : List Nat → Int → Int → Option Nat
  | [], _, _ => none
  | n :: ns, j, c =>
    if j = 0 then (if 0 ≤ c ∧ c < n then some c.toNat else none) else (ragRow ns (j - 1) c).map (fun k => n + k)

/-- Position in a ragged table. -/
def rag : List (List Nat) → Int → Int → Int → Option Nat
  | [], _, _, _ => none
  | r :: rs, i, j, c => if i = 0 then ragRow r j c else (rag rs (i - 1) j c).map (fun k => r.sum + k)

/-- Number of rows of a table. -/
def Dims.size : Dims → Nat
  | .box ds => ds.prod
  | .ragged l => (l.map List.sum).sum

/-- Position of an element of a table. -/
def Dims.ravel : Dims → List Int → Option Nat
  | .box ds, is => Gov1.ravel ds is
  | .ragged l, is =>
    match is with
    | [i, j, c] => rag l i j c
    | _ => none

/-- Check and drop the indices of the aliased dimensions. -/
def stripPre : List Nat → List Int → Option (List Int)
  | [], is => some is
  | d :: ds, i :: is => if 0 ≤ i ∧ i < d then stripPre ds is else none
  | _ :: _, [] => none

/-- The table of that name and the number of rows before it. -/
def locate (t : String) : List Tab → Option (Nat × Tab)
  | [] => none
  | x :: xs => if x.name = t then some (0, x) else (locate t xs).map (fun r => (x.rows.length + r.1, r.2))

/-- The field `state.Tile<t>Cdf`. -/
def findName (t : String) : List (String × List Nat × String) → Option (List Nat × String)
  | [] => none
  | x :: xs => if x.1 = t then some x.2 else findName t xs

/-- Position and number of symbols of `state.Tile<t>Cdf[idx...]`. -/
def cdfFind (k : Fin 4) (t : String) (idx : List Int) : Option (Nat × Nat) :=
  match findName t cdfNames with
  | none => none
  | some (pre, d) =>
    match stripPre pre idx with
    | none => none
    | some is =>
      match locate d (cdfTabs k) with
      | none => none
      | some (b, x) => (x.dims.ravel is).map (fun r => (b + r, x.count))

/-- The layout of the contexts of a tile. -/
def cdfLayout (k : Fin 4) : Layout :=
  ⟨fun t idx => (cdfFind k t idx).map (·.1), fun t idx => (cdfFind k t idx).map (·.2)⟩

/-- The contexts of a tile of a frame without primary reference frame: the default tables. -/
def cdfStore (k : Fin 4) : List (List Int) := (cdfTabs k).flatMap (fun x => x.rows.map (fun l => l.map Int.ofNat))

end Gov1
