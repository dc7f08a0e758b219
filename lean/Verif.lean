import Verif.Lemmas.Add
import Verif.Lemmas.AddCore
import Verif.Lemmas.AddMain
import Verif.Lemmas.Agm
import Verif.Lemmas.AgmLog
import Verif.Lemmas.Borwein
import Verif.Lemmas.BorweinC
import Verif.Lemmas.Closure
import Verif.Lemmas.Compare
import Verif.Lemmas.ComplexE
import Verif.Lemmas.ComplexText
import Verif.Lemmas.Concrete
import Verif.Lemmas.ConstDigits
import Verif.Lemmas.ConstText
import Verif.Lemmas.Digits
import Verif.Lemmas.Eta
import Verif.Lemmas.Euler
import Verif.Lemmas.FFT
import Verif.Lemmas.FFTConv
import Verif.Lemmas.FFTMul
import Verif.Lemmas.FnClosure
import Verif.Lemmas.GammaC
import Verif.Lemmas.GammaDiv
import Verif.Lemmas.GammaReal
import Verif.Lemmas.Heap
import Verif.Lemmas.Int
import Verif.Lemmas.IntArith
import Verif.Lemmas.InvAcc
import Verif.Lemmas.Limbs
import Verif.Lemmas.Machine
import Verif.Lemmas.MantExp
import Verif.Lemmas.Mul
import Verif.Lemmas.MulDivN
import Verif.Lemmas.MulExact
import Verif.Lemmas.MulMain
import Verif.Lemmas.Newton
import Verif.Lemmas.OpNear
import Verif.Lemmas.Parts
import Verif.Lemmas.Prime
import Verif.Lemmas.PrimeCount
import Verif.Lemmas.RealArith
import Verif.Lemmas.RealArsinh
import Verif.Lemmas.RealBinom
import Verif.Lemmas.RealExp
import Verif.Lemmas.RealHyp
import Verif.Lemmas.RealSeries
import Verif.Lemmas.RealSinCos
import Verif.Lemmas.RealTrig
import Verif.Lemmas.Rnd
import Verif.Lemmas.RndArith
import Verif.Lemmas.RndAsin
import Verif.Lemmas.RndAtan
import Verif.Lemmas.RndAtan2
import Verif.Lemmas.RndAtanh
import Verif.Lemmas.RndCx
import Verif.Lemmas.RndCxPow
import Verif.Lemmas.RndCxSqrt
import Verif.Lemmas.RndExp
import Verif.Lemmas.RndExp2
import Verif.Lemmas.RndFn
import Verif.Lemmas.RndHyp
import Verif.Lemmas.RndInst
import Verif.Lemmas.RndLog
import Verif.Lemmas.RndPow
import Verif.Lemmas.RndSeries
import Verif.Lemmas.RndTrig
import Verif.Lemmas.RndTrig2
import Verif.Lemmas.RndTrig3
import Verif.Lemmas.SmallInt
import Verif.Lemmas.SqrtAcc
import Verif.Lemmas.SqrtAlg
import Verif.Lemmas.SqrtStep
import Verif.Lemmas.Start
import Verif.Lemmas.Stirling
import Verif.Lemmas.StirlingC
import Verif.Lemmas.TabBern
import Verif.Lemmas.TabCheck
import Verif.Lemmas.Tangent
import Verif.Lemmas.TextFmt
import Verif.Lemmas.TextLit
import Verif.Lemmas.TextRead
import Verif.Lemmas.TextWrite
import Verif.Lemmas.Theta
import Verif.Lemmas.Value
import Verif.Model.Basic
import Verif.Model.Checked
import Verif.Model.Complex
import Verif.Model.ComplexE
import Verif.Model.ComplexExpon
import Verif.Model.ComplexFn
import Verif.Model.ComplexFnE
import Verif.Model.ComplexPow
import Verif.Model.ComplexText
import Verif.Model.Constants
import Verif.Model.Core
import Verif.Model.DigitScale
import Verif.Model.Double
import Verif.Model.Elementary
import Verif.Model.ElementaryE
import Verif.Model.ElementaryR
import Verif.Model.FFT
import Verif.Model.Gamma
import Verif.Model.Generic
import Verif.Model.GenericR
import Verif.Model.Heap
import Verif.Model.Integer
import Verif.Model.Inv
import Verif.Model.Limbs
import Verif.Model.Machine
import Verif.Model.Prime
import Verif.Model.Special
import Verif.Model.TabData
import Verif.Model.Text
import Verif.Model.Util
import Verif.Model.Zeta
import Verif.Props.AcoshRnd
import Verif.Props.Add
import Verif.Props.AngleSign
import Verif.Props.Asin
import Verif.Props.AsinRnd
import Verif.Props.Atan
import Verif.Props.Bern
import Verif.Props.Bernoulli
import Verif.Props.Combi
import Verif.Props.Compare
import Verif.Props.Complex
import Verif.Props.ComplexE
import Verif.Props.ComplexFn
import Verif.Props.ComplexText
import Verif.Props.Constants
import Verif.Props.CxExpon
import Verif.Props.CxLog
import Verif.Props.CxPow
import Verif.Props.CxRnd
import Verif.Props.CxSqrt
import Verif.Props.CxTan
import Verif.Props.DigitScale
import Verif.Props.DivBasic
import Verif.Props.Exp
import Verif.Props.ExpRnd
import Verif.Props.FFT
import Verif.Props.Factorial
import Verif.Props.Floor
import Verif.Props.Fmod
import Verif.Props.FnRnd
import Verif.Props.FnValid
import Verif.Props.Gamma
import Verif.Props.GammaC
import Verif.Props.Generic
import Verif.Props.GenericLog
import Verif.Props.GenericPi
import Verif.Props.GenericRoot
import Verif.Props.Heap
import Verif.Props.Hyper
import Verif.Props.Hyperbolic
import Verif.Props.Integer
import Verif.Props.Inverse
import Verif.Props.Log
import Verif.Props.LogRnd
import Verif.Props.Machine
import Verif.Props.Mul
import Verif.Props.Odd
import Verif.Props.Parts
import Verif.Props.Pi
import Verif.Props.PochC
import Verif.Props.Pow
import Verif.Props.PowExact
import Verif.Props.PowRnd
import Verif.Props.Prime
import Verif.Props.RootPrec
import Verif.Props.Roots
import Verif.Props.Signed
import Verif.Props.SmallInt
import Verif.Props.Sqrt
import Verif.Props.Tables
import Verif.Props.Text
import Verif.Props.TextFmt
import Verif.Props.TextWrite
import Verif.Props.Trig
import Verif.Props.TrigRnd
import Verif.Props.Util
import Verif.Props.Words
import Verif.Props.Zeta
import Verif.Props.ZetaC
import Verif.Props.ZetaCRefl
import Verif.Props.ZetaInt
import Verif.Props.ZetaNan
import Verif.Props.ZetaProd
import Verif.Props.ZetaRefl
import Verif.Spec
import Verif.SpecCText
import Verif.SpecText
