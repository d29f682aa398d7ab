import Verif.C
import Verif.Model.AES
import Verif.Model.Accuracy
import Verif.Model.AffineM4ri
import Verif.Model.Basic
import Verif.Model.Basis
import Verif.Model.Cmp
import Verif.Model.Com
import Verif.Model.Github2
import Verif.Model.Github3
import Verif.Model.Github4
import Verif.Model.Github5
import Verif.Model.Github6
import Verif.Model.Github7
import Verif.Model.LowMC
import Verif.Model.M128
import Verif.Model.M16
import Verif.Model.M256
import Verif.Model.M32
import Verif.Model.M4
import Verif.Model.M4riAlloc
import Verif.Model.M4riBits
import Verif.Model.M4riCodes
import Verif.Model.M4riCompress
import Verif.Model.M4riDensity
import Verif.Model.M4riDjb
import Verif.Model.M4riEch
import Verif.Model.M4riEchPluq
import Verif.Model.M4riFree
import Verif.Model.M4riJcf
import Verif.Model.M4riLayout
import Verif.Model.M4riMisc
import Verif.Model.M4riMove
import Verif.Model.M4riPerm
import Verif.Model.M4riPle
import Verif.Model.M4riPluq
import Verif.Model.M4riPrint
import Verif.Model.M4riRandom
import Verif.Model.M4riRowAdd
import Verif.Model.M4riRows
import Verif.Model.M4riSolve
import Verif.Model.M4riStrassen
import Verif.Model.M4riTrans
import Verif.Model.M4riTri
import Verif.Model.M4riTrsm
import Verif.Model.M4riWord
import Verif.Model.M64
import Verif.Model.M8
import Verif.Model.MatGf2
import Verif.Model.Ntl
import Verif.Model.Old
import Verif.Model.OldLib
import Verif.Model.RGE
import Verif.Model.RLUD
import Verif.Model.SM4
import Verif.Model.Seed
import Verif.Model.SpBase
import Verif.Model.SpFreq
import Verif.Model.SpGamma
import Verif.Model.SpLinear
import Verif.Model.SpMain
import Verif.Model.SpMaurer
import Verif.Model.SpRank
import Verif.Model.SpSerial
import Verif.Model.SpTemplate
import Verif.Model.SpWalk
import Verif.Model.Symbols
import Verif.Model.WBAESM4ri
import Verif.Model.WBAESNtl
import Verif.Model.WBGE
import Verif.Model.WBSM4
import Verif.Model.WBSM4M4ri
import Verif.Model.WBSM4Ntl
import Verif.Proof.AESEnc
import Verif.Proof.AESGen
import Verif.Proof.AESInit
import Verif.Proof.AESKey
import Verif.Proof.AESLoop
import Verif.Proof.AESMix
import Verif.Proof.AESPlain
import Verif.Proof.AESRound
import Verif.Proof.Accuracy
import Verif.Proof.AccuracyCom
import Verif.Proof.AccuracyLib
import Verif.Proof.AccuracyMain
import Verif.Proof.AccuracySec
import Verif.Proof.Add
import Verif.Proof.AffFun
import Verif.Proof.Affine
import Verif.Proof.AffineM4ri
import Verif.Proof.BasisLoop
import Verif.Proof.BasisTab
import Verif.Proof.Bits
import Verif.Proof.Cmp
import Verif.Proof.Com
import Verif.Proof.ComGen
import Verif.Proof.Dirty
import Verif.Proof.Elim
import Verif.Proof.ElimAll
import Verif.Proof.GFPoly
import Verif.Proof.Gauss
import Verif.Proof.GenSteps
import Verif.Proof.Gf2Check
import Verif.Proof.Github2
import Verif.Proof.Github3
import Verif.Proof.Github4
import Verif.Proof.Github5
import Verif.Proof.Github6
import Verif.Proof.Github7
import Verif.Proof.Inj
import Verif.Proof.Lfsr
import Verif.Proof.LfsrSeq
import Verif.Proof.LfsrTab
import Verif.Proof.LowMCBit
import Verif.Proof.LowMCGen
import Verif.Proof.LowMCMat
import Verif.Proof.M4riAddmul
import Verif.Proof.M4riAlloc
import Verif.Proof.M4riBits
import Verif.Proof.M4riBlocks
import Verif.Proof.M4riCodes
import Verif.Proof.M4riCompress
import Verif.Proof.M4riCorner
import Verif.Proof.M4riDensity
import Verif.Proof.M4riDjb
import Verif.Proof.M4riDjbLoop
import Verif.Proof.M4riEch
import Verif.Proof.M4riEchNaive
import Verif.Proof.M4riEchPluq
import Verif.Proof.M4riFree
import Verif.Proof.M4riGauss
import Verif.Proof.M4riGray
import Verif.Proof.M4riInv
import Verif.Proof.M4riJcf
import Verif.Proof.M4riKernel
import Verif.Proof.M4riLayout
import Verif.Proof.M4riMisc
import Verif.Proof.M4riMove
import Verif.Proof.M4riMul
import Verif.Proof.M4riNaive
import Verif.Proof.M4riPack
import Verif.Proof.M4riPerm
import Verif.Proof.M4riPivot
import Verif.Proof.M4riPle
import Verif.Proof.M4riPleE
import Verif.Proof.M4riPleRank
import Verif.Proof.M4riPluq
import Verif.Proof.M4riPrint
import Verif.Proof.M4riProcess
import Verif.Proof.M4riProd
import Verif.Proof.M4riRandom
import Verif.Proof.M4riRandomMore
import Verif.Proof.M4riRow
import Verif.Proof.M4riRowEq
import Verif.Proof.M4riRows
import Verif.Proof.M4riSolve
import Verif.Proof.M4riSolveAlg
import Verif.Proof.M4riStrassen
import Verif.Proof.M4riSub
import Verif.Proof.M4riSwap
import Verif.Proof.M4riTable
import Verif.Proof.M4riTrans
import Verif.Proof.M4riTransDrv
import Verif.Proof.M4riTri
import Verif.Proof.M4riTrsm
import Verif.Proof.M4riTrsmMat
import Verif.Proof.M4riTrsmRec
import Verif.Proof.M4riTrsmRight
import Verif.Proof.M4riUpdate
import Verif.Proof.M4riWindow
import Verif.Proof.M4riWord
import Verif.Proof.MatGf2
import Verif.Proof.MatGf2Gauss
import Verif.Proof.MatGf2IO
import Verif.Proof.MatGf2Init
import Verif.Proof.MatGf2Misc
import Verif.Proof.MatGf2Ops
import Verif.Proof.MatGf2Own
import Verif.Proof.Methods
import Verif.Proof.Mul
import Verif.Proof.MulAll
import Verif.Proof.NtlDraw
import Verif.Proof.NtlGen
import Verif.Proof.NtlRun
import Verif.Proof.NtlUtils
import Verif.Proof.Old
import Verif.Proof.OldEq
import Verif.Proof.OldLib
import Verif.Proof.OldRand
import Verif.Proof.Parity
import Verif.Proof.Print
import Verif.Proof.RandRun
import Verif.Proof.Random
import Verif.Proof.Reach
import Verif.Proof.Reach4
import Verif.Proof.Reach4Tab
import Verif.Proof.ReachPair
import Verif.Proof.Reject
import Verif.Proof.Rel
import Verif.Proof.RelAll
import Verif.Proof.Return
import Verif.Proof.RowOps
import Verif.Proof.Rows
import Verif.Proof.Rref
import Verif.Proof.SM4
import Verif.Proof.SM4Bounds
import Verif.Proof.SM4Box
import Verif.Proof.SM4Modes
import Verif.Proof.SM4Rounds
import Verif.Proof.SeedInj
import Verif.Proof.SeedRows
import Verif.Proof.SeedWit
import Verif.Proof.Simple
import Verif.Proof.SpBase
import Verif.Proof.SpCount
import Verif.Proof.SpFreq
import Verif.Proof.SpGamma
import Verif.Proof.SpLinear
import Verif.Proof.SpMain
import Verif.Proof.SpMaurer
import Verif.Proof.SpRank
import Verif.Proof.SpSerial
import Verif.Proof.SpTemplate
import Verif.Proof.SpWalk
import Verif.Proof.Steps
import Verif.Proof.Trans
import Verif.Proof.TransAll
import Verif.Proof.Tri
import Verif.Proof.TriAll
import Verif.Proof.WBAESM4ri
import Verif.Proof.WBAESM4riGen
import Verif.Proof.WBAESNtl
import Verif.Proof.WBSM4
import Verif.Proof.WBSM4Gen
import Verif.Proof.WBSM4M4ri
import Verif.Proof.WBSM4M4riGen
import Verif.Proof.WBSM4M4riTab
import Verif.Proof.WBSM4Ntl
import Verif.Proof.WBSM4Tab
import Verif.Proof.Wp
import Verif.Prop.C01
import Verif.Prop.C02
import Verif.Prop.C03
import Verif.Prop.C04
import Verif.Prop.C05
import Verif.Prop.C06
import Verif.Prop.C07
import Verif.Prop.C08
import Verif.Prop.C09
import Verif.Prop.C10
import Verif.Prop.C100
import Verif.Prop.C101
import Verif.Prop.C102
import Verif.Prop.C103
import Verif.Prop.C104
import Verif.Prop.C105
import Verif.Prop.C106
import Verif.Prop.C107
import Verif.Prop.C108
import Verif.Prop.C109
import Verif.Prop.C11
import Verif.Prop.C110
import Verif.Prop.C111
import Verif.Prop.C112
import Verif.Prop.C113
import Verif.Prop.C114
import Verif.Prop.C115
import Verif.Prop.C116
import Verif.Prop.C117
import Verif.Prop.C118
import Verif.Prop.C119
import Verif.Prop.C12
import Verif.Prop.C120
import Verif.Prop.C121
import Verif.Prop.C122
import Verif.Prop.C123
import Verif.Prop.C124
import Verif.Prop.C125
import Verif.Prop.C126
import Verif.Prop.C127
import Verif.Prop.C128
import Verif.Prop.C129
import Verif.Prop.C13
import Verif.Prop.C130
import Verif.Prop.C131
import Verif.Prop.C132
import Verif.Prop.C133
import Verif.Prop.C134
import Verif.Prop.C135
import Verif.Prop.C136
import Verif.Prop.C137
import Verif.Prop.C138
import Verif.Prop.C139
import Verif.Prop.C14
import Verif.Prop.C140
import Verif.Prop.C15
import Verif.Prop.C16
import Verif.Prop.C17
import Verif.Prop.C18
import Verif.Prop.C19
import Verif.Prop.C20
import Verif.Prop.C21
import Verif.Prop.C22
import Verif.Prop.C23
import Verif.Prop.C24
import Verif.Prop.C25
import Verif.Prop.C26
import Verif.Prop.C27
import Verif.Prop.C28
import Verif.Prop.C29
import Verif.Prop.C29Seed
import Verif.Prop.C30
import Verif.Prop.C31
import Verif.Prop.C32
import Verif.Prop.C33
import Verif.Prop.C34
import Verif.Prop.C35
import Verif.Prop.C36
import Verif.Prop.C37
import Verif.Prop.C38
import Verif.Prop.C39
import Verif.Prop.C40
import Verif.Prop.C41
import Verif.Prop.C42
import Verif.Prop.C43
import Verif.Prop.C44
import Verif.Prop.C45
import Verif.Prop.C46
import Verif.Prop.C47
import Verif.Prop.C48
import Verif.Prop.C49
import Verif.Prop.C50
import Verif.Prop.C51
import Verif.Prop.C52
import Verif.Prop.C53
import Verif.Prop.C54
import Verif.Prop.C55
import Verif.Prop.C56
import Verif.Prop.C57
import Verif.Prop.C58
import Verif.Prop.C59
import Verif.Prop.C60
import Verif.Prop.C61
import Verif.Prop.C62
import Verif.Prop.C63
import Verif.Prop.C64
import Verif.Prop.C65
import Verif.Prop.C66
import Verif.Prop.C67
import Verif.Prop.C68
import Verif.Prop.C69
import Verif.Prop.C70
import Verif.Prop.C71
import Verif.Prop.C72
import Verif.Prop.C73
import Verif.Prop.C74
import Verif.Prop.C75
import Verif.Prop.C76
import Verif.Prop.C77
import Verif.Prop.C78
import Verif.Prop.C79
import Verif.Prop.C80
import Verif.Prop.C81
import Verif.Prop.C82
import Verif.Prop.C83
import Verif.Prop.C84
import Verif.Prop.C85
import Verif.Prop.C86
import Verif.Prop.C87
import Verif.Prop.C88
import Verif.Prop.C89
import Verif.Prop.C90
import Verif.Prop.C91
import Verif.Prop.C92
import Verif.Prop.C93
import Verif.Prop.C94
import Verif.Prop.C95
import Verif.Prop.C96
import Verif.Prop.C97
import Verif.Prop.C98
import Verif.Prop.C99
import Verif.Prop.Examples
import Verif.Spec
import Verif.SpecAES
import Verif.SpecCmp
import Verif.SpecGF
import Verif.SpecGFPoly
import Verif.SpecM4ri
import Verif.SpecM4riAlloc
import Verif.SpecM4riCodes
import Verif.SpecM4riEch
import Verif.SpecM4riFree
import Verif.SpecM4riLayout
import Verif.SpecM4riPerm
import Verif.SpecM4riPle
import Verif.SpecM4riTrsm
import Verif.SpecM4riWord
import Verif.SpecNtl
import Verif.SpecSM4
import Verif.SpecSp
import Verif.SpecSpR
