import Verif.Model.GoStr
import Verif.Model.Ast
import Verif.Model.Printer
import Verif.Model.Generics
import Verif.Model.Types
import Verif.Spec.Signature
import Verif.Proofs.Types
import Verif.Proofs.TypesSafe
import Verif.Props.Demo
import Verif.Props.Signature
import Verif.Model.PrinterState
import Verif.Spec.Text
import Verif.Spec.TypeText
import Verif.Spec.Printer
import Verif.Proofs.Text
import Verif.Proofs.TypeText
import Verif.Proofs.TypeTextMain
import Verif.Proofs.PrinterNames
import Verif.Proofs.PrinterState
import Verif.Props.Render
import Verif.Props.Printer
import Verif.Spec.TypeParams
import Verif.Props.Generics
import Verif.Model.Generator
import Verif.Model.Template
import Verif.Spec.MethodSet
import Verif.Proofs.Methods
import Verif.Proofs.Discover
import Verif.Proofs.Sound
import Verif.Proofs.Complete
import Verif.Proofs.Order
import Verif.Props.Imports
import Verif.Proofs.Discovered
import Verif.Props.DemoWorld
import Verif.Props.DemoCheck
import Verif.Props.MethodSet
import Verif.Props.Discovery
import Verif.Spec.Termination
import Verif.Proofs.Halts
import Verif.Proofs.Terminate
import Verif.Props.Termination
import Verif.Spec.Instance
import Verif.Proofs.Args
import Verif.Props.Instance
import Verif.Model.Path
import Verif.Model.Flags
import Verif.Model.Effects
import Verif.Model.Loader
import Verif.Model.Cli
import Verif.Spec.Cli
import Verif.Spec.Path
import Verif.Spec.GoGenerate
import Verif.Proofs.Act
import Verif.Proofs.Loader
import Verif.Proofs.Path
import Verif.Props.Loader
import Verif.Props.Vars
import Verif.Props.GenCommand
import Verif.Props.Header
import Verif.Props.Destination
import Verif.Model.Utf8
import Verif.Spec.Utf8
import Verif.Props.Utf8
import Verif.Model.Snake
import Verif.Spec.Snake
import Verif.Props.Snake
import Verif.Spec.Flags
import Verif.Props.Flags
import Verif.Model.Main
import Verif.Props.ExitCode
import Verif.Model.Exec
import Verif.Model.TmplControl
import Verif.Model.TmplObserve
import Verif.Model.TmplValidate
import Verif.Proofs.Exec
import Verif.Proofs.ExecEnv
import Verif.Proofs.Observe
import Verif.Props.Callable
import Verif.Props.Observe
import Verif.Spec.Exec
import Verif.Spec.Observe
import Verif.Proofs.Validate
import Verif.Props.Validate
import Verif.Spec.Validate
import Verif.Proofs.ControlTrees
import Verif.Props.Control
import Verif.Spec.Control
import Verif.Model.Shared
import Verif.Proofs.Shared
import Verif.Props.RateLimit
import Verif.Props.RobinPool
import Verif.Props.SyncPool
import Verif.Spec.Pool
import Verif.Proofs.Breaker
import Verif.Proofs.BreakerData
import Verif.Props.Breaker
import Verif.Props.BreakerSeq
import Verif.Spec.Breaker
import Verif.Model.TmplFallback
import Verif.Proofs.Fallback
import Verif.Proofs.FallbackInv
import Verif.Proofs.FallbackLive
import Verif.Proofs.FallbackTrees
import Verif.Props.Fallback
import Verif.Props.FallbackDemo
import Verif.Spec.Fallback
import Verif.Model.GoAst
import Verif.Model.GoLex
import Verif.Model.TemplateText
import Verif.Model.TextTemplate
import Verif.Proofs.SymLex
import Verif.Proofs.GoPut
import Verif.Proofs.Krfl
import Verif.Proofs.SymExec
import Verif.Proofs.SymFill
import Verif.Proofs.SymFillOk
import Verif.Proofs.SymParse
import Verif.Proofs.SymSound
import Verif.Proofs.TmCircuitbreaker
import Verif.Proofs.TmElasticapm
import Verif.Proofs.TmFallback
import Verif.Proofs.TmGrpcValidate
import Verif.Proofs.TmLog
import Verif.Proofs.TmLogrus
import Verif.Proofs.TmOpencensus
import Verif.Proofs.TmOpentelemetry
import Verif.Proofs.TmOpentracing
import Verif.Proofs.TmPrometheus
import Verif.Proofs.TmRatelimit
import Verif.Proofs.TmRetry
import Verif.Proofs.TmRobinpool
import Verif.Proofs.TmSyncpool
import Verif.Proofs.TmTimeout
import Verif.Proofs.TmTwirpError
import Verif.Proofs.TmTwirpValidate
import Verif.Proofs.TmValidate
import Verif.Proofs.TmplExec
import Verif.Proofs.TmplFile
import Verif.Proofs.TmplSound
import Verif.Proofs.TmplVars
import Verif.Model.GoSem
import Verif.Model.Links
import Verif.Proofs.DenLog
import Verif.Proofs.DenLogrus
import Verif.Proofs.DenPrometheus
import Verif.Proofs.DenTracing
import Verif.Proofs.GoDen
import Verif.Proofs.DenApm
import Verif.Proofs.DenBreaker
import Verif.Proofs.DenPools
import Verif.Proofs.DenRateLimit
import Verif.Proofs.DenRetry
import Verif.Proofs.DenTimeout
import Verif.Proofs.DenTwirpError
import Verif.Proofs.DenValidate
import Verif.Proofs.DenFallback
import Verif.Model.GoFile
import Verif.Proofs.Source
import Verif.Proofs.SourceLex
import Verif.Proofs.SourceToks
import Verif.Proofs.TmplDecls
import Verif.Props.Generated
import Verif.Props.GeneratedDemo
import Verif.Props.Source
import Verif.Spec.Source
import Verif.Proofs.Grammar
import Verif.Proofs.GrammarDecls
import Verif.Proofs.GrammarTm
import Verif.Spec.Grammar
import Verif.Proofs.Shape
import Verif.Proofs.Terminating
import Verif.Spec.Terminating
import Verif.Props.Terminating
import Verif.Model.GoNew
import Verif.Proofs.GoNew
import Verif.Proofs.GoNewRun
import Verif.Props.Constructors
import Verif.Spec.New
import Verif.Model.Inputs
import Verif.Proofs.Accepted
import Verif.Proofs.GrammarMono
import Verif.Proofs.MethodOk
import Verif.Proofs.TypeToks
import Verif.Props.EndToEnd
import Verif.Props.EndToEndDemo
import Verif.Spec.Accepted
import Verif.Proofs.Scope
import Verif.Proofs.ScopeAll
import Verif.Proofs.ScopeFile
import Verif.Props.Scope
import Verif.Props.TypeParams
import Verif.Spec.Scope
import Verif.Spec.ScopeNames
import Verif.Model.Package
import Verif.Props.Package
import Verif.Spec.Package
import Verif.Proofs.Typing
import Verif.Proofs.TypingAll
import Verif.Proofs.TypingBody
import Verif.Proofs.TypingBody2
import Verif.Proofs.TypingBody3
import Verif.Proofs.TypingDecls
import Verif.Proofs.TypingDecls2
import Verif.Proofs.TypingDecls3
import Verif.Proofs.TypingDecls4
import Verif.Proofs.TypingFallback
import Verif.Proofs.TypingFile
import Verif.Proofs.TypingLib
import Verif.Props.Typing
import Verif.Spec.Typ
import Verif.Spec.TypeInputs
import Verif.Spec.TypeNames
import Verif.Spec.Typing
import Verif.Props.Compiles
import Verif.Props.CompilesDemo
import Verif.Spec.Compiles
import Verif.Props.ErrorType
import Verif.Model.Header
import Verif.Tests.Golden
import Verif.Tests.GoldenText
import Verif.Props.SourceFile
import Verif.Props.SourceFileDemo
import Verif.Spec.SourceFile
import Verif.Proofs.Apart
import Verif.Props.Apart
import Verif.Spec.Shared
import Verif.Props.Promises
import Verif.Props.Works
import Verif.Props.WorksDemo
import Verif.Spec.Works
import Verif.Model.Command
import Verif.Props.Command
import Verif.Props.CommandDemo
import Verif.Spec.Command
import Verif.Proofs.ReaderDecl
import Verif.Proofs.ReaderExpr
import Verif.Proofs.ReaderSteps
import Verif.Proofs.ReaderStmt
import Verif.Proofs.ReaderTypes
import Verif.Proofs.ReadingReturns
import Verif.Props.Reading
import Verif.Props.ReadingDemo
import Verif.Spec.Reader
import Verif.Spec.Reading
import Verif.Proofs.NoPanic
import Verif.Props.Exits
import Verif.Props.ExitsDemo
import Verif.Spec.Parsed
import Verif.Proofs.ReadingApart
import Verif.Props.ReadingFull
import Verif.Proofs.MapOrder
import Verif.Props.Deterministic
import Verif.Proofs.Progress
import Verif.Props.Progress
import Verif.Spec.Progress
import Verif.Proofs.Stack
import Verif.Props.Stack
import Verif.Spec.Stack
import Verif.Props.Exact
import Verif.Model.Fmt
import Verif.Model.Messages
import Verif.Model.Usage
import Verif.Proofs.Fmt
import Verif.Proofs.Usage
import Verif.Props.Messages
import Verif.Props.Usage
import Verif.Spec.Usage
import Verif.Proofs.Tower
import Verif.Props.Tower
import Verif.Spec.Tower
import Verif.Props.ExactInputs
import Verif.Model.Quote
import Verif.Proofs.Quote
import Verif.Props.ExactMore
import Verif.Props.Guard
import Verif.Props.NewSemantics
import Verif.Props.Unknown
import Verif.Spec.Guard
import Verif.Spec.Quote
import Verif.Props.Helpers
import Verif.Props.ImportCall
import Verif.Props.TemplateLang
import Verif.Spec.FlatTemplate
import Verif.Spec.Replace
import Verif.Props.NestedLang
import Verif.Spec.NestedTemplate
import Verif.Props.VarsExact
import Verif.Props.UsageExact
import Verif.Props.QualifiedExact
import Verif.Props.ErrorExact
import Verif.Props.ConstraintExact
import Verif.Props.ExitExact
import Verif.Props.PrinterExact
import Verif.Props.InstanceExact
import Verif.Props.TwirpExact
import Verif.Props.RobinExact
import Verif.Props.LimitExact
import Verif.Props.RetryExact
import Verif.Props.TimeoutExact
import Verif.Props.RerunExact
import Verif.Props.ValidateExact
import Verif.Proofs.Regen
import Verif.Props.Regen
import Verif.Spec.Regen
import Verif.Proofs.Local
import Verif.Props.Local
import Verif.Spec.Local
import Verif.Props.RegenCommand
import Verif.Props.TextOf
import Verif.Props.LocalCommand
import Verif.Props.LocalRegen
import Verif.Props.GoGenerate
import Verif.Props.CallExact
import Verif.Props.OwnTemplate
import Verif.Props.HelpersExact
import Verif.Props.TemplateVars
import Verif.Spec.TemplateVars
import Verif.Props.OwnVars
