import Verif.Model.CdfTablesA
import Verif.Model.CdfTablesB
import Verif.Model.CdfTablesC
import Verif.Model.CdfTablesD
/-! # How contexts are wired to the default tables (generated by tools/gencdf.py) -/
namespace Gov1

/-- All default tables of internal/uncompressedheader/cdf.go:345-13305, with their Go names (the
coefficient tables split by quantizer class). -/
def defaultTables : List (String × List (List Nat)) := [
  ("DEFAULT_INTER_TX_TYPE_SET2_CDF", defaultInterTxTypeSet2Cdf),
  ("DEFAULT_INTER_TX_TYPE_SET1_CDF", defaultInterTxTypeSet1Cdf),
  ("DEFAULT_RESTORATION_TYPE_CDF", defaultRestorationTypeCdf),
  ("DEFAULT_USE_SGRPROJ_CDF", defaultUseSgrprojCdf),
  ("DEFAULT_USE_WIENER_CDF", defaultUseWienerCdf),
  ("DEFAULT_CFL_ALPHA_CDF", defaultCflAlphaCdf),
  ("DEFAULT_WEDGE_INDEX_CDF", defaultWedgeIndexCdf),
  ("DEFAULT_INTER_INTRA_MODE_CDF", defaultInterIntraModeCdf),
  ("DEFAULT_COMPOUND_TYPE_CDF", defaultCompoundTypeCdf),
  ("DEFAULT_COMPOUND_IDX_CDF", defaultCompoundIdxCdf),
  ("DEFAULT_COMP_GROUP_IDX_CDF", defaultCompGroupIdxCdf),
  ("DEFAULT_WEDGE_INTER_INTRA_CDF", defaultWedgeInterIntraCdf),
  ("DEFAULT_COMP_REF_TYPE_CDF", defaultCompRefTypeCdf),
  ("DEFAULT_UNI_COMP_REF_CDF", defaultUniCompRefCdf),
  ("DEFAULT_CFL_SIGN_CDF", defaultCflSignCdf),
  ("Default_Comp_Ref_Type_Cdf", defaultAltCompRefTypeCdf),
  ("DEFAULT_INTER_INTRA_CDF", defaultInterIntraCdf),
  ("DEFAULT_USE_OBMC_CDF", defaultUseObmcCdf),
  ("DEFAULT_INTER_TX_TYPE_SET3_CDF", defaultInterTxTypeSet3Cdf),
  ("DEFAULT_INTRA_TX_TYPE_SET2_CDF", defaultIntraTxTypeSet2Cdf),
  ("DEFAULT_INTRA_TX_TYPE_SET1_CDF", defaultIntraTxTypeSet1Cdf),
  ("DEFAULT_DELTA_LF_CDF", defaultDeltaLfCdf),
  ("DEFAULT_DELTA_Q_CDF", defaultDeltaQCdf),
  ("DEFAULT_PALETTE_SIZE_8_UV_COLOR_CDF", defaultPaletteSize8UvColorCdf),
  ("DEFAULT_PALETTE_SIZE_8_Y_COLOR_CDF", defaultPaletteSize8YColorCdf),
  ("DEFAULT_PALETTE_SIZE_7_UV_COLOR_CDF", defaultPaletteSize7UvColorCdf),
  ("DEFAULT_PALETTE_SIZE_7_Y_COLOR_CDF", defaultPaletteSize7YColorCdf),
  ("DEFAULT_PALETTE_SIZE_6_UV_COLOR_CDF", defaultPaletteSize6UvColorCdf),
  ("DEFAULT_PALETTE_SIZE_6_Y_COLOR_CDF", defaultPaletteSize6YColorCdf),
  ("DEFAULT_PALETTE_SIZE_5_UV_COLOR_CDF", defaultPaletteSize5UvColorCdf),
  ("DEFAULT_PALETTE_SIZE_5_Y_COLOR_CDF", defaultPaletteSize5YColorCdf),
  ("DEFAULT_PALETTE_SIZE_4_UV_COLOR_CDF", defaultPaletteSize4UvColorCdf),
  ("DEFAULT_PALETTE_SIZE_4_Y_COLOR_CDF", defaultPaletteSize4YColorCdf),
  ("DEFAULT_PALETTE_SIZE_3_UV_COLOR_CDF", defaultPaletteSize3UvColorCdf),
  ("DEFAULT_PALETTE_SIZE_3_Y_COLOR_CDF", defaultPaletteSize3YColorCdf),
  ("DEFAULT_PALETTE_SIZE_2_UV_COLOR_CDF", defaultPaletteSize2UvColorCdf),
  ("DEFAULT_PALETTE_SIZE_2_Y_COLOR_CDF", defaultPaletteSize2YColorCdf),
  ("DEFAULT_PALETTE_UV_SIZE_CDF", defaultPaletteUvSizeCdf),
  ("DEFAULT_PALETTE_Y_SIZE_CDF", defaultPaletteYSizeCdf),
  ("DEFAULT_PALETTE_UV_MODE_CDF", defaultPaletteUvModeCdf),
  ("DEFAULT_PALETTE_Y_MODE_CDF", defaultPaletteYModeCdf),
  ("DEFAULT_MV_HP_CDF", defaultMvHpCdf),
  ("DEFAULT_MV_BIT_CDF", defaultMvBitCdf),
  ("DEFAULT_MV_SIGN_CDF", defaultMvSignCdf),
  ("DEFAULT_MV_CLASS0_HP_CDF", defaultMvClass0HpCdf),
  ("DEFAULT_MV_CLASS0_FR_CDF", defaultMvClass0FrCdf),
  ("DEFAULT_MV_FR_CDF", defaultMvFrCdf),
  ("DEFAULT_MV_CLASS0_BIT_CDF", defaultMvClass0BitCdf),
  ("DEFAULT_MV_CLASS_CDF", defaultMvClassCdf),
  ("DEFAULT_MV_JOINT_CDF", defaultMvJointCdf),
  ("DEFAULT_SINGLE_REF_CDF", defaultSingleRefCdf),
  ("DEFAULT_COMP_BWD_REF_CDF", defaultCompBwdRefCdf),
  ("DEFAULT_COMP_REF_CDF", defaultCompRefCdf),
  ("DEFAULT_SKIP_CDF", defaultSkipCdf),
  ("DEFAULT_SKIP_MODE_CDF", defaultSkipModeCdf),
  ("DEFAULT_COMP_MODE_CDF", defaultCompModeCdf),
  ("DEFAULT_IS_INTER_CDF", defaultIsInterCdf),
  ("DEFAULT_DRL_MODE_CDF", defaultDrlModeCdf),
  ("DEFAULT_COMPOUND_MODE_CDF", defaultCompoundModeCdf),
  ("DFEAULT_ZERO_MV_CDF", defaultZeroMvCdf),
  ("DEFAULT_NEW_MV_CDF", defaultNewMvCdf),
  ("DEFAULT_MOTION_MODE_CDF", defaultMotionModeCdf),
  ("DEFAULT_INTERP_FILTER_CDF", defaultInterpFilterCdf),
  ("DEFAULT_FILTER_INTRA_MODE_CDF", defaultFilterIntraModeCdf),
  ("DEFAULT_FILTER_INTRA_CDF", defaultFilterIntraCdf),
  ("DEFAULT_TXFM_SPLIT_CDF", defaultTxfmSplitCdf),
  ("DEFAULT_TX_64X64_CDF", defaultTx64x64Cdf),
  ("DEFAULT_TX_32X32_CDF", defaultTx32x32Cdf),
  ("DEFAULT_TX_16X16_CDF", defaultTx16x16Cdf),
  ("DEFAULT_TX_8X8_CDF", defaultTx8x8Cdf),
  ("DEFAULT_SEGMENT_ID_PREDICTED_CDF", defaultSegmentIdPredictedCdf),
  ("DEFAULT_SEGMENT_ID_CDF", defaultSegmentIdCdf),
  ("DEFAULT_PARTITION_W128_CDF", defaultPartitionW128Cdf),
  ("DEFAULT_PARTITION_W64_CDF", defaultPartitionW64Cdf),
  ("DEFAULT_PARTITION_W32_CDF", defaultPartitionW32Cdf),
  ("DEFAULT_PARTITION_W16_CDF", defaultPartitionW16Cdf),
  ("DEFAULT_PARTITION_W8_CDF", defaultPartitionW8Cdf),
  ("DEFAULT_INTRABC_CDF", defaultIntrabcCdf),
  ("DEFAULT_ANGLE_DELTA_CDF", defaultAngleDeltaCdf),
  ("DEFAULT_UV_MODE_CFL_ALLOWED_CDF", defaultUvModeCflAllowedCdf),
  ("DEFAULT_Y_MODE_CDF", defaultYModeCdf),
  ("DEFAULT_UV_MODE_CFL_NOT_ALLOWED_CDF", defaultUvModeCflNotAllowedCdf),
  ("DEFAULT_INTRA_FRAME_Y_MODE_CDF", defaultIntraFrameYModeCdf),
  ("DEFAULT_TXB_SKIP_CDF[0]", defaultTxbSkipCdf0),
  ("DEFAULT_TXB_SKIP_CDF[1]", defaultTxbSkipCdf1),
  ("DEFAULT_TXB_SKIP_CDF[2]", defaultTxbSkipCdf2),
  ("DEFAULT_TXB_SKIP_CDF[3]", defaultTxbSkipCdf3),
  ("DEFAULT_EOB_PT_16_CDF[0]", defaultEobPt16Cdf0),
  ("DEFAULT_EOB_PT_16_CDF[1]", defaultEobPt16Cdf1),
  ("DEFAULT_EOB_PT_16_CDF[2]", defaultEobPt16Cdf2),
  ("DEFAULT_EOB_PT_16_CDF[3]", defaultEobPt16Cdf3),
  ("DEFAULT_EOB_PT_32_CDF[0]", defaultEobPt32Cdf0),
  ("DEFAULT_EOB_PT_32_CDF[1]", defaultEobPt32Cdf1),
  ("DEFAULT_EOB_PT_32_CDF[2]", defaultEobPt32Cdf2),
  ("DEFAULT_EOB_PT_32_CDF[3]", defaultEobPt32Cdf3),
  ("DEFAULT_EOB_PT_64_CDF[0]", defaultEobPt64Cdf0),
  ("DEFAULT_EOB_PT_64_CDF[1]", defaultEobPt64Cdf1),
  ("DEFAULT_EOB_PT_64_CDF[2]", defaultEobPt64Cdf2),
  ("DEFAULT_EOB_PT_64_CDF[3]", defaultEobPt64Cdf3),
  ("DEFAULT_EOB_PT_128_CDF[0]", defaultEobPt128Cdf0),
  ("DEFAULT_EOB_PT_128_CDF[1]", defaultEobPt128Cdf1),
  ("DEFAULT_EOB_PT_128_CDF[2]", defaultEobPt128Cdf2),
  ("DEFAULT_EOB_PT_128_CDF[3]", defaultEobPt128Cdf3),
  ("DEFAULT_EOB_PT_256_CDF[0]", defaultEobPt256Cdf0),
  ("DEFAULT_EOB_PT_256_CDF[1]", defaultEobPt256Cdf1),
  ("DEFAULT_EOB_PT_256_CDF[2]", defaultEobPt256Cdf2),
  ("DEFAULT_EOB_PT_256_CDF[3]", defaultEobPt256Cdf3),
  ("DEFAULT_EOB_PT_512_CDF[0]", defaultEobPt512Cdf0),
  ("DEFAULT_EOB_PT_512_CDF[1]", defaultEobPt512Cdf1),
  ("DEFAULT_EOB_PT_512_CDF[2]", defaultEobPt512Cdf2),
  ("DEFAULT_EOB_PT_512_CDF[3]", defaultEobPt512Cdf3),
  ("DEFAULT_EOB_PT_1024_CDF[0]", defaultEobPt1024Cdf0),
  ("DEFAULT_EOB_PT_1024_CDF[1]", defaultEobPt1024Cdf1),
  ("DEFAULT_EOB_PT_1024_CDF[2]", defaultEobPt1024Cdf2),
  ("DEFAULT_EOB_PT_1024_CDF[3]", defaultEobPt1024Cdf3),
  ("DEFAULT_EOB_EXTRA_CDF[0]", defaultEobExtraCdf0),
  ("DEFAULT_EOB_EXTRA_CDF[1]", defaultEobExtraCdf1),
  ("DEFAULT_EOB_EXTRA_CDF[2]", defaultEobExtraCdf2),
  ("DEFAULT_EOB_EXTRA_CDF[3]", defaultEobExtraCdf3),
  ("DEFAULT_DC_SIGN_CDF[0]", defaultDcSignCdf0),
  ("DEFAULT_DC_SIGN_CDF[1]", defaultDcSignCdf1),
  ("DEFAULT_DC_SIGN_CDF[2]", defaultDcSignCdf2),
  ("DEFAULT_DC_SIGN_CDF[3]", defaultDcSignCdf3),
  ("DEFAULT_COEFF_BASE_EOB_CDF[0]", defaultCoeffBaseEobCdf0),
  ("DEFAULT_COEFF_BASE_EOB_CDF[1]", defaultCoeffBaseEobCdf1),
  ("DEFAULT_COEFF_BASE_EOB_CDF[2]", defaultCoeffBaseEobCdf2),
  ("DEFAULT_COEFF_BASE_EOB_CDF[3]", defaultCoeffBaseEobCdf3),
  ("DEFAULT_COEFF_BASE_CDF[0]", defaultCoeffBaseCdf0),
  ("DEFAULT_COEFF_BASE_CDF[1]", defaultCoeffBaseCdf1),
  ("DEFAULT_COEFF_BASE_CDF[2]", defaultCoeffBaseCdf2),
  ("DEFAULT_COEFF_BASE_CDF[3]", defaultCoeffBaseCdf3),
  ("DEFAULT_COEFF_BR_CDF[0]", defaultCoeffBrCdf0),
  ("DEFAULT_COEFF_BR_CDF[1]", defaultCoeffBrCdf1),
  ("DEFAULT_COEFF_BR_CDF[2]", defaultCoeffBrCdf2),
  ("DEFAULT_COEFF_BR_CDF[3]", defaultCoeffBrCdf3)]

/-- internal/uncompressedheader/cdf.go:9-135 `initNonCoeffCdfs`, `initCoeffCdfs`: the state field
assigned and the global table it is made to refer to (coefficient tables are indexed by quantizer class). -/
def frameWiring : List (String × String) := [
  ("YModeCdf", "DEFAULT_Y_MODE_CDF"),
  ("UVModeCflNotAllowedCdf", "DEFAULT_UV_MODE_CFL_NOT_ALLOWED_CDF"),
  ("UVModeCflAllowedCdf", "DEFAULT_UV_MODE_CFL_ALLOWED_CDF"),
  ("AngleDeltaCdf", "DEFAULT_ANGLE_DELTA_CDF"),
  ("IntrabcCdf", "DEFAULT_INTRABC_CDF"),
  ("PartitionW8Cdf", "DEFAULT_PARTITION_W8_CDF"),
  ("PartitionW16Cdf", "DEFAULT_PARTITION_W16_CDF"),
  ("PartitionW32Cdf", "DEFAULT_PARTITION_W32_CDF"),
  ("PartitionW64Cdf", "DEFAULT_PARTITION_W64_CDF"),
  ("PartitionW128Cdf", "DEFAULT_PARTITION_W128_CDF"),
  ("SegmentIdCdf", "DEFAULT_SEGMENT_ID_CDF"),
  ("SegmentIdPredictedCdf", "DEFAULT_SEGMENT_ID_PREDICTED_CDF"),
  ("Tx8x8Cdf", "DEFAULT_TX_8X8_CDF"),
  ("Tx16x16Cdf", "DEFAULT_TX_16X16_CDF"),
  ("Tx32x32Cdf", "DEFAULT_TX_32X32_CDF"),
  ("Tx64x64Cdf", "DEFAULT_TX_64X64_CDF"),
  ("TxfmSplitCdf", "DEFAULT_TXFM_SPLIT_CDF"),
  ("FilterIntraModeCdf", "DEFAULT_FILTER_INTRA_MODE_CDF"),
  ("FilterIntraCdf", "DEFAULT_FILTER_INTRA_CDF"),
  ("InterpFilterCdf", "DEFAULT_INTERP_FILTER_CDF"),
  ("MotionModeCdf", "DEFAULT_MOTION_MODE_CDF"),
  ("NewMvCdf", "DEFAULT_NEW_MV_CDF"),
  ("ZeroMvCdf", "DFEAULT_ZERO_MV_CDF"),
  ("CompoundModeCdf", "DEFAULT_COMPOUND_MODE_CDF"),
  ("DrlModeCdf", "DEFAULT_DRL_MODE_CDF"),
  ("IsInterCdf", "DEFAULT_IS_INTER_CDF"),
  ("CompModeCdf", "DEFAULT_COMP_MODE_CDF"),
  ("SkipModeCdf", "DEFAULT_SKIP_MODE_CDF"),
  ("SkipCdf", "DEFAULT_SKIP_CDF"),
  ("CompRefCdf", "DEFAULT_COMP_REF_CDF"),
  ("CompBwdRefCdf", "DEFAULT_COMP_BWD_REF_CDF"),
  ("SingleRefCdf", "DEFAULT_SINGLE_REF_CDF"),
  ("MvJointCdf", "DEFAULT_MV_JOINT_CDF"),
  ("MvClassCdf", "DEFAULT_MV_CLASS_CDF"),
  ("MvClass0BitCdf", "DEFAULT_MV_CLASS0_BIT_CDF"),
  ("MvFrCdf", "DEFAULT_MV_FR_CDF"),
  ("MvClass0FrCdf", "DEFAULT_MV_CLASS0_FR_CDF"),
  ("MvClass0HpCdf", "DEFAULT_MV_CLASS0_HP_CDF"),
  ("MvSignCdf", "DEFAULT_MV_SIGN_CDF"),
  ("MvBitCdf", "DEFAULT_MV_BIT_CDF"),
  ("MvHpCdf", "DEFAULT_MV_HP_CDF"),
  ("PaletteYModeCdf", "DEFAULT_PALETTE_Y_MODE_CDF"),
  ("PaletteUVModeCdf", "DEFAULT_PALETTE_UV_MODE_CDF"),
  ("PaletteUVSizeCdf", "DEFAULT_PALETTE_UV_SIZE_CDF"),
  ("PaletteSize2YColorCdf", "DEFAULT_PALETTE_SIZE_2_Y_COLOR_CDF"),
  ("PaletteSize2UVColorCdf", "DEFAULT_PALETTE_SIZE_2_UV_COLOR_CDF"),
  ("PaletteSize3YColorCdf", "DEFAULT_PALETTE_SIZE_3_Y_COLOR_CDF"),
  ("PaletteSize3UVColorCdf", "DEFAULT_PALETTE_SIZE_3_UV_COLOR_CDF"),
  ("PaletteSize4YColorCdf", "DEFAULT_PALETTE_SIZE_4_Y_COLOR_CDF"),
  ("PaletteSize4UVColorCdf", "DEFAULT_PALETTE_SIZE_4_UV_COLOR_CDF"),
  ("PaletteSize5YColorCdf", "DEFAULT_PALETTE_SIZE_5_Y_COLOR_CDF"),
  ("PaletteSize5UVColorCdf", "DEFAULT_PALETTE_SIZE_5_UV_COLOR_CDF"),
  ("PaletteSize6YColorCdf", "DEFAULT_PALETTE_SIZE_6_Y_COLOR_CDF"),
  ("PaletteSize6UVColorCdf", "DEFAULT_PALETTE_SIZE_6_UV_COLOR_CDF"),
  ("PaletteSize7YColorCdf", "DEFAULT_PALETTE_SIZE_7_Y_COLOR_CDF"),
  ("PaletteSize7UVColorCdf", "DEFAULT_PALETTE_SIZE_7_UV_COLOR_CDF"),
  ("PaletteSize8YColorCdf", "DEFAULT_PALETTE_SIZE_8_Y_COLOR_CDF"),
  ("PaletteSize8UVColorCdf", "DEFAULT_PALETTE_SIZE_8_UV_COLOR_CDF"),
  ("DeltaQCdf", "DEFAULT_DELTA_Q_CDF"),
  ("DeltaLFCdf", "DEFAULT_DELTA_LF_CDF"),
  ("DeltaLFMultiCdf", "DEFAULT_DELTA_LF_CDF"),
  ("IntraTxTypeSet1Cdf", "DEFAULT_INTRA_TX_TYPE_SET1_CDF"),
  ("IntraTxTypeSet2Cdf", "DEFAULT_INTRA_TX_TYPE_SET2_CDF"),
  ("InterTxTypeSet1Cdf", "DEFAULT_INTER_TX_TYPE_SET1_CDF"),
  ("InterTxTypeSet2Cdf", "DEFAULT_INTER_TX_TYPE_SET2_CDF"),
  ("InterTxTypeSet3Cdf", "DEFAULT_INTER_TX_TYPE_SET3_CDF"),
  ("UseObmcCdf", "DEFAULT_USE_OBMC_CDF"),
  ("InterIntraCdf", "DEFAULT_INTER_INTRA_CDF"),
  ("CompRefTypeCdf", "DEFAULT_COMP_REF_TYPE_CDF"),
  ("CflSignCdf", "DEFAULT_CFL_SIGN_CDF"),
  ("UniCompRefCdf", "DEFAULT_UNI_COMP_REF_CDF"),
  ("WedgeInterIntraCdf", "DEFAULT_WEDGE_INTER_INTRA_CDF"),
  ("CompGroupIdxCdf", "DEFAULT_COMP_GROUP_IDX_CDF"),
  ("CompoundIdxCdf", "DEFAULT_COMPOUND_IDX_CDF"),
  ("CompoundTypeCdf", "DEFAULT_COMPOUND_TYPE_CDF"),
  ("InterIntraModeCdf", "DEFAULT_INTER_INTRA_MODE_CDF"),
  ("WedgeIndexCdf", "DEFAULT_WEDGE_INDEX_CDF"),
  ("CflAlphaCdf", "DEFAULT_CFL_ALPHA_CDF"),
  ("UseWienerCdf", "DEFAULT_USE_WIENER_CDF"),
  ("UseSgrprojCdf", "DEFAULT_USE_SGRPROJ_CDF"),
  ("RestorationTypeCdf", "DEFAULT_RESTORATION_TYPE_CDF"),
  ("TxbSkipCdf", "DEFAULT_TXB_SKIP_CDF"),
  ("EobPt16Cdf", "DEFAULT_EOB_PT_16_CDF"),
  ("EobPt32Cdf", "DEFAULT_EOB_PT_32_CDF"),
  ("EobPt64Cdf", "DEFAULT_EOB_PT_64_CDF"),
  ("EobPt128Cdf", "DEFAULT_EOB_PT_128_CDF"),
  ("EobPt256Cdf", "DEFAULT_EOB_PT_256_CDF"),
  ("EobPt512Cdf", "DEFAULT_EOB_PT_512_CDF"),
  ("EobPt1024Cdf", "DEFAULT_EOB_PT_1024_CDF"),
  ("EobExtraCdf", "DEFAULT_EOB_EXTRA_CDF"),
  ("DcSignCdf", "DEFAULT_DC_SIGN_CDF"),
  ("CoeffBaseEobCdf", "DEFAULT_COEFF_BASE_EOB_CDF"),
  ("CoeffBaseCdf", "DEFAULT_COEFF_BASE_CDF"),
  ("CoeffBrCdf", "DEFAULT_COEFF_BR_CDF")]

/-- internal/tilegroup/tile_group.go:480-579 (`initSymbol`): the tile context assigned and the frame
context (or global table) it is made to refer to. -/
def tileWiring : List (String × String) := [
  ("TileIntraFrameYModeCdf", "DEFAULT_INTRA_FRAME_Y_MODE_CDF"),
  ("TileYModeCdf", "YModeCdf"),
  ("TileUVModeCflNotAllowedCdf", "UVModeCflNotAllowedCdf"),
  ("TileUVModeCflAllowedCdf", "UVModeCflAllowedCdf"),
  ("TileAngleDeltaCdf", "AngleDeltaCdf"),
  ("TileIntrabcCdf", "IntrabcCdf"),
  ("TilePartitionW8Cdf", "PartitionW8Cdf"),
  ("TilePartitionW16Cdf", "PartitionW16Cdf"),
  ("TilePartitionW32Cdf", "PartitionW32Cdf"),
  ("TilePartitionW64Cdf", "PartitionW64Cdf"),
  ("TilePartitionW128Cdf", "PartitionW128Cdf"),
  ("TileSegmentIdCdf", "SegmentIdCdf"),
  ("TileSegmentIdPredictedCdf", "SegmentIdPredictedCdf"),
  ("TileTx8x8Cdf", "Tx8x8Cdf"),
  ("TileTx16x16Cdf", "Tx16x16Cdf"),
  ("TileTx32x32Cdf", "Tx32x32Cdf"),
  ("TileTx64x64Cdf", "Tx64x64Cdf"),
  ("TileTxfmSplitCdf", "TxfmSplitCdf"),
  ("TileFilterIntraModeCdf", "FilterIntraModeCdf"),
  ("TileFilterIntraCdf", "FilterIntraCdf"),
  ("TileInterpFilterCdf", "InterpFilterCdf"),
  ("TileMotionModeCdf", "MotionModeCdf"),
  ("TileNewMvCdf", "NewMvCdf"),
  ("TileZeroMvCdf", "ZeroMvCdf"),
  ("TileRefMvCdf", "RefMvCdf"),
  ("TileCompoundModeCdf", "CompoundModeCdf"),
  ("TileDrlModeCdf", "DrlModeCdf"),
  ("TileIsInterCdf", "IsInterCdf"),
  ("TileCompModeCdf", "CompModeCdf"),
  ("TileSkipModeCdf", "SkipModeCdf"),
  ("TileSkipCdf", "SkipCdf"),
  ("TileCompRefCdf", "CompRefCdf"),
  ("TileCompBwdRefCdf", "CompBwdRefCdf"),
  ("TileSingleRefCdf", "SingleRefCdf"),
  ("TileMvJointCdf", "MvJointCdf"),
  ("TileMvClassCdf", "MvClassCdf"),
  ("TileMvClass0BitCdf", "MvClass0BitCdf"),
  ("TileMvFrCdf", "MvFrCdf"),
  ("TileMvClass0FrCdf", "MvClass0FrCdf"),
  ("TileMvClass0HpCdf", "MvClass0HpCdf"),
  ("TileMvSignCdf", "MvSignCdf"),
  ("TileMvBitCdf", "MvBitCdf"),
  ("TileMvHpCdf", "MvHpCdf"),
  ("TilePaletteYModeCdf", "PaletteYModeCdf"),
  ("TilePaletteUVModeCdf", "PaletteUVModeCdf"),
  ("TilePaletteUVSizeCdf", "PaletteUVSizeCdf"),
  ("TilePaletteSize2YColorCdf", "PaletteSize2YColorCdf"),
  ("TilePaletteSize2UVColorCdf", "PaletteSize2UVColorCdf"),
  ("TilePaletteSize3YColorCdf", "PaletteSize3YColorCdf"),
  ("TilePaletteSize3UVColorCdf", "PaletteSize3UVColorCdf"),
  ("TilePaletteSize4YColorCdf", "PaletteSize4YColorCdf"),
  ("TilePaletteSize4UVColorCdf", "PaletteSize4UVColorCdf"),
  ("TilePaletteSize5YColorCdf", "PaletteSize5YColorCdf"),
  ("TilePaletteSize5UVColorCdf", "PaletteSize5UVColorCdf"),
  ("TilePaletteSize6YColorCdf", "PaletteSize6YColorCdf"),
  ("TilePaletteSize6UVColorCdf", "PaletteSize6UVColorCdf"),
  ("TilePaletteSize7YColorCdf", "PaletteSize7YColorCdf"),
  ("TilePaletteSize7UVColorCdf", "PaletteSize7UVColorCdf"),
  ("TilePaletteSize8YColorCdf", "PaletteSize8YColorCdf"),
  ("TilePaletteSize8UVColorCdf", "PaletteSize8UVColorCdf"),
  ("TileDeltaQCdf", "DeltaQCdf"),
  ("TileDeltaLFCdf", "DeltaLFCdf"),
  ("TileDeltaLFMultiCdf", "DeltaLFMultiCdf"),
  ("TileIntraTxTypeSet1Cdf", "IntraTxTypeSet1Cdf"),
  ("TileIntraTxTypeSet2Cdf", "IntraTxTypeSet2Cdf"),
  ("TileInterTxTypeSet1Cdf", "InterTxTypeSet1Cdf"),
  ("TileInterTxTypeSet2Cdf", "InterTxTypeSet2Cdf"),
  ("TileInterTxTypeSet3Cdf", "InterTxTypeSet3Cdf"),
  ("TileUseObmcCdf", "UseObmcCdf"),
  ("TileInterIntraCdf", "InterIntraCdf"),
  ("TileCompRefTypeCdf", "CompRefTypeCdf"),
  ("TileCflSignCdf", "CflSignCdf"),
  ("TileUniCompRefCdf", "UniCompRefCdf"),
  ("TileWedgeInterIntraCdf", "WedgeInterIntraCdf"),
  ("TileCompGroupIdxCdf", "CompGroupIdxCdf"),
  ("TileCompoundIdxCdf", "CompoundIdxCdf"),
  ("TileCompoundTypeCdf", "CompoundTypeCdf"),
  ("TileInterIntraModeCdf", "InterIntraModeCdf"),
  ("TileWedgeIndexCdf", "WedgeIndexCdf"),
  ("TileCflAlphaCdf", "CflAlphaCdf"),
  ("TileUseWienerCdf", "UseWienerCdf"),
  ("TileUseSgrprojCdf", "UseSgrprojCdf"),
  ("TileRestorationTypeCdf", "RestorationTypeCdf"),
  ("TileTxbSkipCdf", "TxbSkipCdf"),
  ("TileEobPt16Cdf", "EobPt16Cdf"),
  ("TileEobPt32Cdf", "EobPt32Cdf"),
  ("TileEobPt64Cdf", "EobPt64Cdf"),
  ("TileEobPt128Cdf", "EobPt128Cdf"),
  ("TileEobPt256Cdf", "EobPt256Cdf"),
  ("TileEobPt512Cdf", "EobPt512Cdf"),
  ("TileEobPt1024Cdf", "EobPt1024Cdf"),
  ("TileEobExtraCdf", "EobExtraCdf"),
  ("TileDcSignCdf", "DcSignCdf"),
  ("TileCoeffBaseEobCdf", "CoeffBaseEobCdf"),
  ("TileCoeffBaseCdf", "CoeffBaseCdf"),
  ("TileCoeffBrCdf", "CoeffBrCdf")]

end Gov1
