import Verif.Model.Ppc
import Verif.Spec.Rounding
import Verif.Spec.Float
import Verif.Spec.Formats
import Verif.Proof.Div
import Verif.Proof.Round
import Verif.Proof.Normalize2
import Verif.Proof.AddOrSub
import Verif.Proof.Arith
import Verif.Props.Arith
import Verif.Props.Algebra
import Verif.Props.NanOnly
import Verif.Props.Bits
import Verif.Props.Consts
import Verif.Props.Compare
import Verif.Spec.Int
import Verif.Props.Ints
import Verif.Props.Integral
import Verif.Props.Next
import Verif.Props.Scale
import Verif.Props.Convert
import Verif.Props.Rem
import Verif.Spec.Fma
import Verif.Props.Fma
import Verif.Props.FmaExact
import Verif.Spec.Limbs
import Verif.Props.Limbs
import Verif.Spec.Parse
import Verif.Props.Parse
import Verif.Proof.DecNum
import Verif.Proof.DecCalc
import Verif.Proof.DecUlps
import Verif.Proof.DecRound
import Verif.Proof.DecConv
import Verif.Props.Decimal
import Verif.Spec.Display
import Verif.Proof.Display
import Verif.Props.Display
import Verif.Spec.Ppc
import Verif.Proof.Ppc
import Verif.Props.Ppc
import Verif.Props.PpcOps
import Verif.Proof.TwoSum
import Verif.Props.PpcAdd
import Verif.Proof.OverflowSum
import Verif.Proof.PairProduct
import Verif.Props.PpcRange
import Verif.Props.PpcMul
import Verif.Props.Api
import Verif.Props.Identities
import Verif.Props.Enclosure
import Verif.Props.ErrorFree
import Verif.Props.DoubleRounding
import Verif.Props.LongLiteral
import Verif.Props.DisplayLayout
import Verif.Props.PpcScale
import Verif.Props.Total
import Verif.Model.Api
import Verif.Conformance.Support
import Verif.Conformance.Ppc
import Verif.Conformance.Downstream
import Verif.Conformance.Ieee1
import Verif.Conformance.Ieee2
import Verif.Conformance.Ieee3
import Verif.Conformance.Ieee4
import Verif.Conformance.Ieee5
import Verif.Conformance.Ieee6
import Verif.Conformance.Ieee7
import Verif.Conformance.Ieee8
import Verif.Props.BitOrder
import Verif.Props.Monotone
import Verif.Props.Order
import Verif.Props.Compose
import Verif.Props.Quiet
import Verif.Props.PpcTotal
import Verif.Props.PpcExact
import Verif.Spec.DecimalForm
import Verif.Props.DisplayZero
import Verif.Props.DecimalClose
import Verif.Props.PpcMulAll
import Verif.Proof.Faithful
import Verif.Spec.PpcNear
import Verif.Props.PpcModes
import Verif.Props.Widths
import Verif.Spec.Accumulate
import Verif.Props.Accumulate
import Verif.Props.PpcAccumulate
import Verif.Model.Debug
import Verif.Props.Debug
import Verif.Props.PpcOrder
import Verif.Props.Interval
import Verif.Props.Spelling
import Verif.Props.PpcWidths
import Verif.Props.RemLaws
import Verif.Props.PpcMono
import Verif.Props.DecimalTrip
import Verif.Props.IntDiv
import Verif.Props.Midpoint
import Verif.Props.Compensated
import Verif.Props.ExactTrip
import Verif.Props.Iterate
import Verif.Props.PpcWide
import Verif.Props.BitsOnly
import Verif.Props.Prefix
import Verif.Props.Dot
import Verif.Props.SpellingPair
import Verif.Props.Casts
import Verif.Props.NanBits
import Verif.Props.Fuzz
import Verif.Props.FuzzEval
import Verif.Props.FuzzHard
import Verif.Props.FuzzAll
import Verif.Props.Build
import Verif.Props.Splitting
import Verif.Props.Printers
import Verif.Props.FuzzPrint
import Verif.Props.Scaling
import Verif.Props.NanOrigin
import Verif.Props.FuzzCxx
import Verif.Props.Sticky
import Verif.Props.DivMul
import Verif.Props.Shares
import Verif.Props.FuzzReport
import Verif.Props.Everyday
import Verif.Props.Determinant
import Verif.Props.DisplayExact
import Verif.Props.EverydayPair
import Verif.Props.Chain
import Verif.Props.TextWide
import Verif.Props.Ties
import Verif.Props.Markstein
import Verif.Props.Residual
import Verif.Props.Shifter
import Verif.Props.Ulp
import Verif.Props.Absorb
import Verif.Props.CompareBy
import Verif.Props.PpcCompareBy
import Verif.Props.Cases
import Verif.Props.Counter
import Verif.Props.Halving
import Verif.Props.Doubling
import Verif.Props.Epsilon
import Verif.Props.Extremes
import Verif.Props.PpcExtremes
import Verif.Props.Sorting
import Verif.Props.Bisect
import Verif.Props.Digits
import Verif.Props.Euclid
import Verif.Props.EuclidPair
import Verif.Props.Expansion
import Verif.Props.Running
import Verif.Props.RunningProduct
import Verif.Props.Horner
import Verif.Props.Power
