import Verif.Examples.RepoTests
import Verif.Examples.Sample
import Verif.Examples.SiTests
import Verif.Examples.TestLang
import Verif.Examples.TextSample
import Verif.Examples.TypeMismatch
import Verif.Examples.Ui
import Verif.Proofs.Accepted
import Verif.Proofs.Api
import Verif.Proofs.ApiRel
import Verif.Proofs.BMap
import Verif.Proofs.Book
import Verif.Proofs.BookIdeal
import Verif.Proofs.Coherence
import Verif.Proofs.CoreText
import Verif.Proofs.Diags
import Verif.Proofs.DimAnalysis
import Verif.Proofs.DimType
import Verif.Proofs.Dims
import Verif.Proofs.Emit
import Verif.Proofs.Erase
import Verif.Proofs.Estimate
import Verif.Proofs.Eval
import Verif.Proofs.ExpLift
import Verif.Proofs.ExpMap
import Verif.Proofs.Expand
import Verif.Proofs.Exponent
import Verif.Proofs.FastCheck
import Verif.Proofs.Fits
import Verif.Proofs.Float
import Verif.Proofs.FloatOrder
import Verif.Proofs.Generated
import Verif.Proofs.Generic
import Verif.Proofs.Magnitude
import Verif.Proofs.Modulo
import Verif.Proofs.Natural
import Verif.Proofs.NoOverflow
import Verif.Proofs.NoStd
import Verif.Proofs.NumTraits
import Verif.Proofs.Operators
import Verif.Proofs.Parse
import Verif.Proofs.ParseStmt
import Verif.Proofs.Ratio
import Verif.Proofs.RationalApi
import Verif.Proofs.RationalBuild
import Verif.Proofs.RationalText
import Verif.Proofs.ReadErrors
import Verif.Proofs.RealEstimate
import Verif.Proofs.Release
import Verif.Proofs.ReleaseText
import Verif.Proofs.Renaming
import Verif.Proofs.Resolve
import Verif.Proofs.Root
import Verif.Proofs.RoundTrip
import Verif.Proofs.Scale
import Verif.Proofs.Shape
import Verif.Proofs.SiFacts
import Verif.Proofs.SiTable
import Verif.Proofs.SoftText
import Verif.Proofs.Text
import Verif.Proofs.TextPanic
import Verif.Proofs.TextStr
import Verif.Proofs.Torn
import Verif.Proofs.Unify
import Verif.Proofs.Versions
import Verif.Proofs.WellFormed
import Verif.Proofs.Written
import Verif.Props.C01
import Verif.Props.C02
import Verif.Props.C03
import Verif.Props.C04
import Verif.Props.C05
import Verif.Props.C06
import Verif.Props.C07
import Verif.Props.C08
import Verif.Props.C09
import Verif.Props.C10
import Verif.Props.C11
import Verif.Props.C12
import Verif.Props.C13
import Verif.Props.C14
import Verif.Props.C15
import Verif.Props.C16
import Verif.Props.C17
import Verif.Props.C18
import Verif.Props.C18Literals
import Verif.Props.C19
import Verif.Props.C20
import Verif.Props.C21
import Verif.Props.C22
import Verif.Props.C23
import Verif.Props.C24
import Verif.Props.C25
import Verif.Props.C26
import Verif.Props.C27
import Verif.Props.C27Float
import Verif.Props.C28
import Verif.Props.C29
import Verif.Props.C30
import Verif.Props.C31
import Verif.Props.C32
import Verif.Props.C32Bodies
import Verif.Props.C32Components
import Verif.Props.C33
import Verif.Props.C34
import Verif.Props.C35
import Verif.Props.C35Rand
import Verif.Props.C36
import Verif.Props.C37
import Verif.Props.C38
import Verif.Props.C39
import Verif.Props.C40
import Verif.Props.C41
import Verif.Props.C42
import Verif.Props.C42Reading
import Verif.Props.C43
import Verif.Props.C44
import Verif.Props.C44Single
import Verif.Props.C45
import Verif.Props.C46
import Verif.Props.C47
import Verif.Props.C47Rational
import Verif.Props.C48
import Verif.Props.C48Exact
import Verif.Props.C49
import Verif.Props.C49Si
import Verif.Props.C50
import Verif.Props.C51
import Verif.Props.C52
import Verif.Props.C53
import Verif.Props.C54
import Verif.Props.C55
import Verif.Props.C56
import Verif.Props.C57
import Verif.Props.C58
import Verif.Props.C59
import Verif.Props.C60
import Verif.Props.C61
import Verif.Props.C62
import Verif.Props.C63
import Verif.Props.C63Rational
import Verif.Props.C64
import Verif.Props.C64Rational
import Verif.Props.C64Single
import Verif.Props.C65
import Verif.Props.C66
import Verif.Props.C67
import Verif.Props.C68
import Verif.Props.C69
import Verif.Props.C70
import Verif.Props.C71
import Verif.Props.C72
import Verif.Props.C73
import Verif.Props.C73Si
import Verif.Props.C74
import Verif.Props.C75
import Verif.Props.C75Message
import Verif.Props.C76
import Verif.Props.C77
import Verif.Props.C78
import Verif.Props.C79
import Verif.Props.C79Branching
import Verif.Props.C79Compare
import Verif.Props.C80
import Verif.Props.C80Si
import Verif.Props.C81
import Verif.Props.C82
import Verif.Props.C83
import Verif.Props.C83Names
import Verif.Props.C83Tokens
