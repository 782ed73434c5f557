import Verif.Model.ScanTables
import Verif.Model.Transform
import Verif.Model.Util
/-!
# Model of the scan selection and the transform type sets of internal/tilegroup/coeffs.go

Transform sizes are the constants of internal/tilegroup/tx_size.go:157-175 (`TX_4X4 = 0`, `TX_8X8 = 1`,
`TX_16X16 = 2`, `TX_32X32 = 3`, `TX_64X64 = 4`, `TX_4X8 = 5`, `TX_8X4 = 6`, `TX_8X16 = 7`, `TX_16X8 = 8`,
`TX_16X32 = 9`, `TX_32X16 = 10`, `TX_32X64 = 11`, `TX_64X32 = 12`, `TX_4X16 = 13`, `TX_16X4 = 14`,
`TX_8X32 = 15`, `TX_32X8 = 16`, `TX_16X64 = 17`, `TX_64X16 = 18`); transform types those of
coeffs.go:798-813 (`DCT_DCT = 0`, ..., `IDTX = 9`, `V_DCT = 10`, `H_DCT = 11`, `V_ADST = 12`, `H_ADST = 13`,
`V_FLIPADST = 14`, `H_FLIPADST = 15`).
-/
namespace Gov1

/-- internal/tilegroup/tx_size.go:217 `Tx_Width`. -/
def txWidth : List Nat := [4, 8, 16, 32, 64, 4, 8, 8, 16, 16, 32, 32, 64, 4, 16, 8, 32, 16, 64]
/-- internal/tilegroup/tx_size.go:218 `Tx_Height`. -/
def txHeight : List Nat := [4, 8, 16, 32, 64, 8, 4, 16, 8, 32, 16, 64, 32, 16, 4, 32, 8, 64, 16]
/-- internal/tilegroup/coeffs.go:823-843 `TX_SIZE_SQR`. -/
def txSizeSqr : List Nat := [0, 1, 2, 3, 4, 0, 0, 1, 1, 2, 2, 3, 3, 0, 0, 1, 1, 2, 2]
/-- internal/tilegroup/coeffs.go:845-865 `TX_SIZE_SQR_UP`. -/
def txSizeSqrUp : List Nat := [0, 1, 2, 3, 4, 1, 1, 2, 2, 3, 3, 4, 4, 2, 2, 3, 3, 4, 4]

/-- internal/tilegroup/coeffs.go:409-424 `getTxClass`: 0 two-dimensional, 1 horizontal, 2 vertical. -/
def getTxClass (txType : Int) : Nat :=
  if txType = 10 ∨ txType = 12 ∨ txType = 14 then 2
  else if txType = 11 ∨ txType = 13 ∨ txType = 15 then 1
  else 0

/-- internal/tilegroup/coeffs.go:532-552 `getMColScan`. -/
def getMcolScan (txSz : Nat) : List Nat :=
  if txSz = 0 then mcolScan4x4
  else if txSz = 5 then mcolScan4x8
  else if txSz = 6 then mcolScan8x4
  else if txSz = 1 then mcolScan8x8
  else if txSz = 7 then mcolScan8x16
  else if txSz = 8 then mcolScan16x8
  else if txSz = 2 then mcolScan16x16
  else if txSz = 13 then mcolScan4x16
  else mcolScan16x4

/-- internal/tilegroup/coeffs.go:554-574 `getMrowScan`. -/
def getMrowScan (txSz : Nat) : List Nat :=
  if txSz = 0 then mrowScan4x4
  else if txSz = 5 then mrowScan4x8
  else if txSz = 6 then mrowScan8x4
  else if txSz = 1 then mrowScan8x8
  else if txSz = 7 then mrowScan8x16
  else if txSz = 8 then mrowScan16x8
  else if txSz = 2 then mrowScan16x16
  else if txSz = 13 then mrowScan4x16
  else mrowScan16x4

/-- internal/tilegroup/coeffs.go:576-606 `getDefaultScan`. -/
def getDefaultScan (txSz : Nat) : List Nat :=
  if txSz = 0 then defaultScan4x4
  else if txSz = 5 then defaultScan4x8
  else if txSz = 6 then defaultScan8x4
  else if txSz = 1 then defaultScan8x8
  else if txSz = 7 then defaultScan8x16
  else if txSz = 8 then defaultScan16x8
  else if txSz = 2 then defaultScan16x16
  else if txSz = 9 then defaultScan16x32
  else if txSz = 10 then defaultScan32x16
  else if txSz = 13 then defaultScan4x16
  else if txSz = 14 then defaultScan16x4
  else if txSz = 15 then defaultScan8x32
  else if txSz = 16 then defaultScan32x8
  else defaultScan32x32

/-- internal/tilegroup/coeffs.go:497-530 `getScan(txSz)` for `t.PlaneTxType = txType`; `TX_64X16` gets the
scan of 16x32. -/
def getScan (txSz : Nat) (txType : Int) : Res (List Nat) :=
  if txSz = 17 then .ok defaultScan16x32
  else if txSz = 18 then .ok defaultScan16x32
  else do
    let up ← goGet txSizeSqrUp txSz
    if up = 4 then .ok defaultScan32x32
    else if txType = 9 then .ok (getDefaultScan txSz)
    else if txType = 10 ∨ txType = 12 ∨ txType = 14 then .ok (getMrowScan txSz)
    else if txType = 11 ∨ txType = 13 ∨ txType = 15 then .ok (getMcolScan txSz)
    else .ok (getDefaultScan txSz)

/-! ## Transform type sets -/

/-- internal/tilegroup/coeffs.go:761-786 `getTxSet`. -/
def getTxSet (txSz : Nat) (isInter reducedTxSet : Bool) : Res Nat := do
  let sqr ← goGet txSizeSqr txSz
  let up ← goGet txSizeSqrUp txSz
  if up > 3 then pure 0
  else if isInter then
    if reducedTxSet ∨ up = 3 then pure 3
    else if sqr = 2 then pure 2
    else pure 1
  else
    if up = 3 then pure 0
    else if reducedTxSet then pure 2
    else if sqr = 2 then pure 2
    else pure 1

/-- internal/tilegroup/coeffs.go:788 `Tx_Type_Intra_Inv_Set1`. -/
def txTypeIntraInvSet1 : List Int := [9, 0, 10, 11, 3, 1, 2]
/-- internal/tilegroup/coeffs.go:789 `Tx_Type_Intra_Inv_Set2`. -/
def txTypeIntraInvSet2 : List Int := [9, 0, 3, 1, 2]
/-- internal/tilegroup/coeffs.go:790-792 `Tx_Type_Inter_Inv_Set1`. -/
def txTypeInterInvSet1 : List Int := [9, 10, 11, 12, 13, 14, 15, 0, 1, 2, 4, 5, 3, 6, 7, 8]
/-- internal/tilegroup/coeffs.go:793-795 `Tx_Type_Inter_Inv_Set2`. -/
def txTypeInterInvSet2 : List Int := [9, 10, 11, 0, 1, 2, 4, 5, 3, 6, 7, 8]
/-- internal/tilegroup/coeffs.go:796 `Tx_Type_Inter_Inv_Set3`. -/
def txTypeInterInvSet3 : List Int := [9, 0]

/-- internal/tilegroup/coeffs.go:657-667 `Tx_Type_In_Set_Intra`. -/
def txTypeInSetIntra : List (List Nat) := [
  [1, 0, 0, 0, 0, 0, 0, 0, 0, 0, 0, 0, 0, 0, 0, 0],
  [1, 1, 1, 1, 0, 0, 0, 0, 0, 1, 1, 1, 0, 0, 0, 0],
  [1, 1, 1, 1, 0, 0, 0, 0, 0, 1, 0, 0, 0, 0, 0, 0]]
/-- internal/tilegroup/coeffs.go:669-682 `Tx_Type_In_Set_Inter`. -/
def txTypeInSetInter : List (List Nat) := [
  [1, 0, 0, 0, 0, 0, 0, 0, 0, 0, 0, 0, 0, 0, 0, 0],
  [1, 1, 1, 1, 1, 1, 1, 1, 1, 1, 1, 1, 1, 1, 1, 1],
  [1, 1, 1, 1, 1, 1, 1, 1, 1, 1, 1, 1, 0, 0, 0, 0],
  [1, 0, 0, 0, 0, 0, 0, 0, 0, 1, 0, 0, 0, 0, 0, 0]]

/-- internal/tilegroup/coeffs.go:684-690 `isTxTypeInSet`. -/
def isTxTypeInSet (isInter : Bool) (txSet : Nat) (txType : Int) : Res Bool := do
  let r ← goGet (if isInter then txTypeInSetInter else txTypeInSetIntra) txSet
  let v ← goGet r txType
  pure (v != 0)

/-- internal/tilegroup/coeffs.go:608-623 `Mode_To_Txfm`. -/
def modeToTxfm : List Int := [0, 1, 2, 0, 3, 1, 2, 2, 1, 3, 1, 2, 3, 0]

end Gov1
