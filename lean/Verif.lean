import Verif.Base
import Verif.CsString
import Verif.World
import Verif.Token
import Verif.Tokenizer
import Verif.Value
import Verif.Parser
import Verif.VariantOps
import Verif.Scope
import Verif.Builtins
import Verif.Interp
import Verif.Lisp
import Verif.Demo
import Verif.Debugger
import Verif.DebugRun
import Verif.Cli
import Verif.SpecText
import Verif.LemText
import Verif.SpecValue
import Verif.LemM
import Verif.PropsText
import Verif.SpecTok
import Verif.LemTok
import Verif.PropsTok
import Verif.SpecParse
import Verif.LemParse
import Verif.PropsParse
import Verif.SpecOps
import Verif.PropsArith
import Verif.SpecList
import Verif.LemInv
import Verif.LemPrim
import Verif.PropsList
import Verif.PropsMacro
import Verif.LemMono
import Verif.SpecEval
import Verif.LemEval
import Verif.LemStep
import Verif.PropsRun
import Verif.SpecForms
import Verif.DemoEval
import Verif.PropsForms
import Verif.SpecScope
import Verif.PropsAssign
import Verif.PropsCall
import Verif.SpecDict
import Verif.PropsDict
import Verif.SpecPlace
import Verif.PropsPlace
import Verif.SpecDbg
import Verif.PropsDbg
import Verif.SpecCli
import Verif.PropsCli
import Verif.SpecDefault
import Verif.PropsDefault
import Verif.SpecCode
import Verif.PropsExpand
import Verif.SpecScript
import Verif.PropsScript
import Verif.SpecCore
import Verif.SpecMacro
import Verif.LemCore
import Verif.LemSim
import Verif.LemRun
import Verif.LemRun2
import Verif.LemMacro
import Verif.LemInput
import Verif.LemImport
import Verif.LemPlatform
import Verif.LemSearch
import Verif.LemDict
import Verif.PropsCore
import Verif.PropsProg
import Verif.SpecSave
import Verif.PropsSave
import Verif.SpecBits
import Verif.PropsBits
import Verif.SpecArity
import Verif.PropsArity
import Verif.SpecValid
import Verif.SpecFrame
import Verif.LemValid
import Verif.LemValidOps
import Verif.LemValidBuiltin
import Verif.LemValidParse
import Verif.LemValidInterp
import Verif.LemValidRun
import Verif.LemValidDebug
import Verif.PropsValid
import Verif.PropsFrame
import Verif.SpecConv
import Verif.PropsConv
import Verif.SpecNum
import Verif.PropsNum
import Verif.SpecNumExpr
import Verif.PropsNumExpr
import Verif.SpecNames
import Verif.PropsNames
import Verif.SpecTrace
import Verif.PropsTrace
import Verif.SpecImport
import Verif.SpecModule
import Verif.PropsImport
import Verif.SpecExpand
import Verif.PropsMacroCt
import Verif.SpecDoc
import Verif.PropsDoc
import Verif.PropsInfo
import Verif.SpecFormat
import Verif.PropsFormat
import Verif.SpecListing
import Verif.PropsListing
import Verif.SpecDisplay
import Verif.PropsDisplay
import Verif.SpecLib
import Verif.LemLib
import Verif.PropsLib
import Verif.SeenAttr
import Verif.LemSeen
import Verif.LemDebug
import Verif.SpecDebug
import Verif.LemDebug2
import Verif.PropsDebug
import Verif.SpecFloat
import Verif.LemFloat
import Verif.PropsFloat
import Verif.SpecError
import Verif.LemError
import Verif.LemError2
import Verif.PropsError
import Verif.SpecForever
import Verif.LemForever
import Verif.PropsForever
import Verif.SpecTimes
import Verif.PropsTimes
import Verif.SpecNumber
import Verif.PropsNumber
import Verif.SpecShell
import Verif.PropsShell
import Verif.PropsWords
import Verif.SpecSession
import Verif.PropsSession
import Verif.PropsModule
import Verif.LemNotation
import Verif.SpecFuellib
import Verif.LemFuellib
import Verif.PropsFuellib
import Verif.SpecInspect
import Verif.PropsInspect
import Verif.PropsBreak
import Verif.SpecTree
import Verif.PropsTree
import Verif.PropsFormatRun
import Verif.LemConsume
import Verif.PropsConsume
import Verif.PropsBudget
import Verif.PropsClear
import Verif.PropsReport
import Verif.PropsLineOne
import Verif.PropsMixed
import Verif.PropsUntyped
import Verif.LemDisk
import Verif.PropsDisk
import Verif.LemFns
import Verif.PropsFns
import Verif.LemTidy
import Verif.PropsTidy
import Verif.PropsDefn
