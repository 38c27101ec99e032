import Verif.Derive
import Verif.LawfulPrim
import Verif.LawfulArray
import Verif.DeriveIff
import Verif.IterLemmas
import Verif.ConvLemmas
import Verif.MacroLemmas
import Verif.Safe
import Verif.PropLemmas
import Verif.Props.Examples
import Verif.Props.Basic
import Verif.Props.Order
import Verif.Props.Iter
import Verif.Props.Conv
import Verif.Props.Derive
import Verif.Props.Macros
import Verif.Props.Serde
import Verif.Props.Fmt
import Verif.Props.Machine
import Verif.Props.Total
import Verif.Props.SerdeIO
import Verif.Props.SerdeMore
import Verif.Props.Diag
import Verif.Props.Rustc
import Verif.Props.UserIter
import Verif.Props.Bitwise
import Verif.Props.Options
import Verif.Props.Zeros
import Verif.Props.Number
import Verif.Props.Storage
import Verif.Props.Stray
import Verif.Props.MacroEnv
import Verif.Props.UserInto
import Verif.Props.Program
import Verif.Props.SrcPrim
import Verif.Props.SrcArray
import Verif.Props.SrcSet
import Verif.Props.SrcSetOps
import Verif.Props.SrcSetConv
import Verif.Props.SrcSetIter
import Verif.Props.SrcStorage
import Verif.Props.SrcExamples
import Verif.Props.SrcHistory
import Verif.Props.SrcMacro
import Verif.Props.SrcMacroMap
import Verif.Props.SrcMacroRun
import Verif.Props.SrcMacroImpl
import Verif.Props.SrcMacroExamples
import Verif.Props.SrcMacroEntry
import Verif.SpecGen
import Verif.Src.GenProg
import Verif.Props.SrcGenItems
import Verif.Props.SrcGen
import Verif.Props.SrcGenRun
import Verif.Props.SrcGenFns
import Verif.Props.SrcGenAll
import Verif.Props.SrcGenHistory
import Verif.Src.MacroRules
import Verif.Src.MacrosRs
import Verif.Src.UserProg
import Verif.SpecMac
import Verif.Props.SrcRules
import Verif.Props.SrcRulesRun
import Verif.Props.SrcRulesHistory
import Verif.SpecSerdeRun
import Verif.Props.SrcSerdeFns
import Verif.Props.SrcSerde
import Verif.Props.SrcSerdeDe
import Verif.Props.SrcSerdeAll
import Verif.Props.SrcSerdeHistory
import Verif.SpecText
import Verif.Props.SrcTextLib
import Verif.Props.SrcTextIter
import Verif.Props.SrcText
import Verif.Props.SrcParse
import Verif.Props.SrcParsePlain
import Verif.Props.SrcParseStd
import Verif.Props.SrcParsePath
import Verif.Props.SrcParsePathStd
import Verif.Props.SrcParseSerde
import Verif.Props.SrcParseSerdeStd
import Verif.Props.SrcParseSerdePath
import Verif.Props.SrcParseSerdePathStd
import Verif.Props.SrcParseDerive
import Verif.Tests.RepoTests
import Verif.Tests.DocTests
