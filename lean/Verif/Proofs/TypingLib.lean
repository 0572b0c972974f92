import Verif.Proofs.Typing
import Verif.Proofs.Krfl
/-!
# What the templates use of other packages
-/

namespace Gowrap.Tmpl

open Gowrap Go Spec

set_option maxRecDepth 100000

open Lib

/-- The functions, variables and constants. -/
theorem lib_values :
    Lib.get g!"errors" g!"New" Lib.values = some (.fn [.string] .error) ∧
    Lib.get g!"errors" g!"Is" Lib.values = some (.fn [.error, .error] .bool) ∧
    Lib.get g!"fmt" g!"Errorf" Lib.values = some (.func [.string] (some .any) [.error]) ∧
    Lib.get g!"strings" g!"Join" Lib.values = some (.fn [.slice .string, .string] .string) ∧
    Lib.get g!"context" g!"WithTimeout" Lib.values = some (.func [ctx, duration] none [ctx, .lib g!"context" g!"CancelFunc"]) ∧
    Lib.get g!"context" g!"WithCancel" Lib.values = some (.func [ctx] none [ctx, .lib g!"context" g!"CancelFunc"]) ∧
    Lib.get g!"time" g!"Now" Lib.values = some (.fn [] timeT) ∧
    Lib.get g!"time" g!"Since" Lib.values = some (.fn [timeT] duration) ∧
    Lib.get g!"time" g!"Tick" Lib.values = some (.fn [duration] (.recv timeT)) ∧
    Lib.get g!"time" g!"NewTicker" Lib.values = some (.fn [duration] (.ptr (.lib g!"time" g!"Ticker"))) ∧
    Lib.get g!"time" g!"Second" Lib.values = some (duration) ∧
    Lib.get g!"time" g!"Minute" Lib.values = some (duration) ∧
    Lib.get g!"sync/atomic" g!"AddUint32" Lib.values = some (.fn [.ptr .uint32, .uint32] .uint32) ∧
    Lib.get g!"log" g!"New" Lib.values = some (.fn [.lib g!"io" g!"Writer", .string, .int] (.ptr (.lib g!"log" g!"Logger"))) ∧
    Lib.get g!"log" g!"LstdFlags" Lib.values = some (.untyped .int) ∧
    Lib.get apmP g!"StartSpan" Lib.values = some (.func [ctx, .string, .string] none [.ptr (.lib apmP g!"Span"), ctx]) ∧
    Lib.get apmP g!"CaptureError" Lib.values = some (.fn [ctx, .error] (.ptr (.lib apmP g!"Error"))) ∧
    Lib.get tracingP g!"StartSpanFromContext" Lib.values = some (.func [ctx, .string] (some (.lib tracingP g!"StartSpanOption")) [.lib tracingP g!"Span", ctx]) ∧
    Lib.get tracingExtP g!"Error" Lib.values = some (.lib tracingExtP g!"boolTagName") ∧
    Lib.get tracingLogP g!"String" Lib.values = some (.fn [.string, .string] (.lib tracingLogP g!"Field")) ∧
    Lib.get censusP g!"StartSpan" Lib.values = some (.func [ctx, .string] (some (.lib censusP g!"StartOption")) [ctx, .ptr (.lib censusP g!"Span")]) ∧
    Lib.get censusP g!"BoolAttribute" Lib.values = some (.fn [.string, .bool] (.lib censusP g!"Attribute")) ∧
    Lib.get censusP g!"StringAttribute" Lib.values = some (.fn [.string, .string] (.lib censusP g!"Attribute")) ∧
    Lib.get otelP g!"Tracer" Lib.values = some (.func [.string] (some (.lib otelTraceP g!"TracerOption")) [.lib otelTraceP g!"Tracer"]) ∧
    Lib.get otelCodesP g!"Error" Lib.values = some (.lib otelCodesP g!"Code") ∧
    Lib.get otelAttrP g!"String" Lib.values = some (.fn [.string, .string] (.lib otelAttrP g!"KeyValue")) ∧
    Lib.get promautoP g!"NewSummaryVec" Lib.values = some (.fn [.lib promP g!"SummaryOpts", .slice .string] (.ptr (.lib promP g!"SummaryVec"))) ∧
    Lib.get twirpP g!"NewError" Lib.values = some (.fn [.lib twirpP g!"ErrorCode", .string] (.lib twirpP g!"Error")) ∧
    Lib.get twirpP g!"InternalErrorWith" Lib.values = some (.fn [.error] (.lib twirpP g!"Error")) ∧
    Lib.get twirpP g!"InvalidArgument" Lib.values = some (.lib twirpP g!"ErrorCode") ∧
    Lib.get jsonP g!"Marshal" Lib.values = some (.func [.any] none [.slice (.basic g!"byte"), .error]) ∧
    Lib.get codesP g!"InvalidArgument" Lib.values = some (.lib codesP g!"Code") ∧
    Lib.get statusP g!"Error" Lib.values = some (.fn [.lib codesP g!"Code", .string] .error) :=
  ⟨by krfl, by krfl, by krfl, by krfl, by krfl, by krfl, by krfl, by krfl, by krfl, by krfl, by krfl, by krfl, by krfl, by krfl, by krfl, by krfl, by krfl, by krfl, by krfl, by krfl, by krfl, by krfl, by krfl, by krfl, by krfl, by krfl, by krfl, by krfl, by krfl, by krfl, by krfl, by krfl, by krfl⟩

/-- They are not types. -/
theorem lib_notTypes :
    Lib.get g!"errors" g!"New" Lib.types = none ∧
    Lib.get g!"errors" g!"Is" Lib.types = none ∧
    Lib.get g!"fmt" g!"Errorf" Lib.types = none ∧
    Lib.get g!"strings" g!"Join" Lib.types = none ∧
    Lib.get g!"context" g!"WithTimeout" Lib.types = none ∧
    Lib.get g!"context" g!"WithCancel" Lib.types = none ∧
    Lib.get g!"time" g!"Now" Lib.types = none ∧
    Lib.get g!"time" g!"Since" Lib.types = none ∧
    Lib.get g!"time" g!"Tick" Lib.types = none ∧
    Lib.get g!"time" g!"NewTicker" Lib.types = none ∧
    Lib.get g!"time" g!"Second" Lib.types = none ∧
    Lib.get g!"time" g!"Minute" Lib.types = none ∧
    Lib.get g!"sync/atomic" g!"AddUint32" Lib.types = none ∧
    Lib.get g!"log" g!"New" Lib.types = none ∧
    Lib.get g!"log" g!"LstdFlags" Lib.types = none ∧
    Lib.get apmP g!"StartSpan" Lib.types = none ∧
    Lib.get apmP g!"CaptureError" Lib.types = none ∧
    Lib.get tracingP g!"StartSpanFromContext" Lib.types = none ∧
    Lib.get tracingExtP g!"Error" Lib.types = none ∧
    Lib.get tracingLogP g!"String" Lib.types = none ∧
    Lib.get censusP g!"StartSpan" Lib.types = none ∧
    Lib.get censusP g!"BoolAttribute" Lib.types = none ∧
    Lib.get censusP g!"StringAttribute" Lib.types = none ∧
    Lib.get otelP g!"Tracer" Lib.types = none ∧
    Lib.get otelCodesP g!"Error" Lib.types = none ∧
    Lib.get otelAttrP g!"String" Lib.types = none ∧
    Lib.get promautoP g!"NewSummaryVec" Lib.types = none ∧
    Lib.get twirpP g!"NewError" Lib.types = none ∧
    Lib.get twirpP g!"InternalErrorWith" Lib.types = none ∧
    Lib.get twirpP g!"InvalidArgument" Lib.types = none ∧
    Lib.get jsonP g!"Marshal" Lib.types = none ∧
    Lib.get codesP g!"InvalidArgument" Lib.types = none ∧
    Lib.get statusP g!"Error" Lib.types = none :=
  ⟨by krfl, by krfl, by krfl, by krfl, by krfl, by krfl, by krfl, by krfl, by krfl, by krfl, by krfl, by krfl, by krfl, by krfl, by krfl, by krfl, by krfl, by krfl, by krfl, by krfl, by krfl, by krfl, by krfl, by krfl, by krfl, by krfl, by krfl, by krfl, by krfl, by krfl, by krfl, by krfl, by krfl⟩

/-- The types. -/
theorem lib_types :
    Lib.get g!"context" g!"Context" Lib.types = some ⟨.iface [(g!"Deadline", .func [] none [timeT, .bool]), (g!"Done", done), (g!"Err", .fn [] .error), (g!"Value", .fn [.any] .any)], []⟩ ∧
    Lib.get g!"context" g!"CancelFunc" Lib.types = some ⟨.func [] none [], []⟩ ∧
    Lib.get g!"time" g!"Duration" Lib.types = some ⟨.basic g!"int64", [⟨g!"Seconds", false, .fn [] .float64⟩]⟩ ∧
    Lib.get g!"time" g!"Time" Lib.types = some ⟨hidden, [⟨g!"Add", false, .fn [duration] timeT⟩, ⟨g!"After", false, .fn [timeT] .bool⟩]⟩ ∧
    Lib.get g!"time" g!"Ticker" Lib.types = some ⟨.struct [(g!"C", .recv timeT)], [⟨g!"Stop", true, .func [] none []⟩]⟩ ∧
    Lib.get g!"sync" g!"RWMutex" Lib.types = some ⟨hidden, [⟨g!"Lock", true, .func [] none []⟩, ⟨g!"Unlock", true, .func [] none []⟩, ⟨g!"RLock", true, .func [] none []⟩, ⟨g!"RUnlock", true, .func [] none []⟩]⟩ ∧
    Lib.get g!"io" g!"Writer" Lib.types = some ⟨.iface [(g!"Write", .func [.slice (.basic g!"byte")] none [.int, .error])], []⟩ ∧
    Lib.get g!"log" g!"Logger" Lib.types = some ⟨hidden, [⟨g!"Println", true, .func [] (some .any) []⟩]⟩ ∧
    Lib.get logrusP g!"Fields" Lib.types = some ⟨.map .string .any, []⟩ ∧
    Lib.get logrusP g!"Entry" Lib.types = some ⟨hidden, [⟨g!"WithFields", true, .fn [.lib logrusP g!"Fields"] (.ptr (.lib logrusP g!"Entry"))⟩, ⟨g!"Debug", true, .func [] (some .any) []⟩, ⟨g!"Error", true, .func [] (some .any) []⟩]⟩ ∧
    Lib.get apmP g!"Span" Lib.types = some ⟨.struct [(g!"SpanData", .ptr (.lib apmP g!"SpanData"))], [⟨g!"End", true, .func [] none []⟩]⟩ ∧
    Lib.get apmP g!"SpanData" Lib.types = some ⟨.struct [(g!"Context", .lib apmP g!"SpanContext")], []⟩ ∧
    Lib.get apmP g!"SpanContext" Lib.types = some ⟨hidden, [⟨g!"SetLabel", true, .func [.string, .any] none []⟩]⟩ ∧
    Lib.get apmP g!"Error" Lib.types = some ⟨hidden, [⟨g!"Send", true, .func [] none []⟩]⟩ ∧
    Lib.get tracingP g!"Span" Lib.types = some ⟨.iface [(g!"Finish", .func [] none []), (g!"LogFields", .func [] (some (.lib tracingLogP g!"Field")) [])], []⟩ ∧
    Lib.get tracingExtP g!"boolTagName" Lib.types = some ⟨.string, [⟨g!"Set", false, .func [.lib tracingP g!"Span", .bool] none []⟩]⟩ ∧
    Lib.get tracingLogP g!"Field" Lib.types = some ⟨hidden, []⟩ ∧
    Lib.get censusP g!"Span" Lib.types = some ⟨hidden, [⟨g!"AddAttributes", true, .func [] (some (.lib censusP g!"Attribute")) []⟩, ⟨g!"End", true, .func [] none []⟩]⟩ ∧
    Lib.get censusP g!"Attribute" Lib.types = some ⟨hidden, []⟩ ∧
    Lib.get otelTraceP g!"Tracer" Lib.types = some ⟨.iface [(g!"Start", .func [ctx, .string] (some (.lib otelTraceP g!"SpanStartOption")) [ctx, .lib otelTraceP g!"Span"])], []⟩ ∧
    Lib.get otelTraceP g!"Span" Lib.types = some ⟨.iface [(g!"End", .func [] (some (.lib otelTraceP g!"SpanEndOption")) []), (g!"RecordError", .func [.error] (some (.lib otelTraceP g!"EventOption")) []), (g!"SetStatus", .func [.lib otelCodesP g!"Code", .string] none []), (g!"SetAttributes", .func [] (some (.lib otelAttrP g!"KeyValue")) [])], []⟩ ∧
    Lib.get otelCodesP g!"Code" Lib.types = some ⟨.uint32, []⟩ ∧
    Lib.get otelAttrP g!"KeyValue" Lib.types = some ⟨hidden, []⟩ ∧
    Lib.get promP g!"SummaryOpts" Lib.types = some ⟨.struct [(g!"Namespace", .string), (g!"Subsystem", .string), (g!"Name", .string), (g!"Help", .string), (g!"ConstLabels", .lib promP g!"Labels"), (g!"Objectives", .map .float64 .float64), (g!"MaxAge", duration), (g!"AgeBuckets", .uint32), (g!"BufCap", .uint32)], []⟩ ∧
    Lib.get promP g!"SummaryVec" Lib.types = some ⟨hidden, [⟨g!"WithLabelValues", true, .func [] (some .string) [.lib promP g!"Observer"]⟩]⟩ ∧
    Lib.get promP g!"Observer" Lib.types = some ⟨.iface [(g!"Observe", .func [.float64] none [])], []⟩ ∧
    Lib.get twirpP g!"Error" Lib.types = some ⟨.iface [(g!"Code", .fn [] (.lib twirpP g!"ErrorCode")), (g!"Msg", .fn [] .string), (g!"WithMeta", .fn [.string, .string] (.lib twirpP g!"Error")), (g!"Meta", .fn [.string] .string), (g!"MetaMap", .fn [] (.map .string .string)), (g!"Error", .fn [] .string)], []⟩ ∧
    Lib.get twirpP g!"ErrorCode" Lib.types = some ⟨.string, []⟩ ∧
    Lib.get codesP g!"Code" Lib.types = some ⟨.uint32, []⟩ :=
  ⟨by krfl, by krfl, by krfl, by krfl, by krfl, by krfl, by krfl, by krfl, by krfl, by krfl, by krfl, by krfl, by krfl, by krfl, by krfl, by krfl, by krfl, by krfl, by krfl, by krfl, by krfl, by krfl, by krfl, by krfl, by krfl, by krfl, by krfl, by krfl, by krfl⟩

/-- Their underlying types. -/
theorem lib_under {F : FileTypes} :
    Typ.under F (.lib g!"context" g!"Context") = .iface [(g!"Deadline", .func [] none [timeT, .bool]), (g!"Done", done), (g!"Err", .fn [] .error), (g!"Value", .fn [.any] .any)] ∧
    Typ.under F (.lib g!"context" g!"CancelFunc") = .func [] none [] ∧
    Typ.under F (.lib g!"time" g!"Duration") = .basic g!"int64" ∧
    Typ.under F (.lib g!"time" g!"Time") = hidden ∧
    Typ.under F (.lib g!"time" g!"Ticker") = .struct [(g!"C", .recv timeT)] ∧
    Typ.under F (.lib g!"sync" g!"RWMutex") = hidden ∧
    Typ.under F (.lib g!"io" g!"Writer") = .iface [(g!"Write", .func [.slice (.basic g!"byte")] none [.int, .error])] ∧
    Typ.under F (.lib g!"log" g!"Logger") = hidden ∧
    Typ.under F (.lib logrusP g!"Fields") = .map .string .any ∧
    Typ.under F (.lib logrusP g!"Entry") = hidden ∧
    Typ.under F (.lib apmP g!"Span") = .struct [(g!"SpanData", .ptr (.lib apmP g!"SpanData"))] ∧
    Typ.under F (.lib apmP g!"SpanData") = .struct [(g!"Context", .lib apmP g!"SpanContext")] ∧
    Typ.under F (.lib apmP g!"SpanContext") = hidden ∧
    Typ.under F (.lib apmP g!"Error") = hidden ∧
    Typ.under F (.lib tracingP g!"Span") = .iface [(g!"Finish", .func [] none []), (g!"LogFields", .func [] (some (.lib tracingLogP g!"Field")) [])] ∧
    Typ.under F (.lib tracingExtP g!"boolTagName") = .string ∧
    Typ.under F (.lib tracingLogP g!"Field") = hidden ∧
    Typ.under F (.lib censusP g!"Span") = hidden ∧
    Typ.under F (.lib censusP g!"Attribute") = hidden ∧
    Typ.under F (.lib otelTraceP g!"Tracer") = .iface [(g!"Start", .func [ctx, .string] (some (.lib otelTraceP g!"SpanStartOption")) [ctx, .lib otelTraceP g!"Span"])] ∧
    Typ.under F (.lib otelTraceP g!"Span") = .iface [(g!"End", .func [] (some (.lib otelTraceP g!"SpanEndOption")) []), (g!"RecordError", .func [.error] (some (.lib otelTraceP g!"EventOption")) []), (g!"SetStatus", .func [.lib otelCodesP g!"Code", .string] none []), (g!"SetAttributes", .func [] (some (.lib otelAttrP g!"KeyValue")) [])] ∧
    Typ.under F (.lib otelCodesP g!"Code") = .uint32 ∧
    Typ.under F (.lib otelAttrP g!"KeyValue") = hidden ∧
    Typ.under F (.lib promP g!"SummaryOpts") = .struct [(g!"Namespace", .string), (g!"Subsystem", .string), (g!"Name", .string), (g!"Help", .string), (g!"ConstLabels", .lib promP g!"Labels"), (g!"Objectives", .map .float64 .float64), (g!"MaxAge", duration), (g!"AgeBuckets", .uint32), (g!"BufCap", .uint32)] ∧
    Typ.under F (.lib promP g!"SummaryVec") = hidden ∧
    Typ.under F (.lib promP g!"Observer") = .iface [(g!"Observe", .func [.float64] none [])] ∧
    Typ.under F (.lib twirpP g!"Error") = .iface [(g!"Code", .fn [] (.lib twirpP g!"ErrorCode")), (g!"Msg", .fn [] .string), (g!"WithMeta", .fn [.string, .string] (.lib twirpP g!"Error")), (g!"Meta", .fn [.string] .string), (g!"MetaMap", .fn [] (.map .string .string)), (g!"Error", .fn [] .string)] ∧
    Typ.under F (.lib twirpP g!"ErrorCode") = .string ∧
    Typ.under F (.lib codesP g!"Code") = .uint32 :=
  ⟨by krfl, by krfl, by krfl, by krfl, by krfl, by krfl, by krfl, by krfl, by krfl, by krfl, by krfl, by krfl, by krfl, by krfl, by krfl, by krfl, by krfl, by krfl, by krfl, by krfl, by krfl, by krfl, by krfl, by krfl, by krfl, by krfl, by krfl, by krfl, by krfl⟩

/-- Fields and methods. -/
theorem lib_members {F : FileTypes} :
    Typ.member F (.lib g!"context" g!"Context") g!"Deadline" = .func [] none [timeT, .bool] ∧
    Typ.member F (.lib g!"context" g!"Context") g!"Done" = done ∧
    Typ.member F (.lib g!"context" g!"Context") g!"Err" = .fn [] .error ∧
    Typ.member F (.lib g!"context" g!"Context") g!"Value" = .fn [.any] .any ∧
    Typ.member F (.lib g!"time" g!"Duration") g!"Seconds" = .fn [] .float64 ∧
    Typ.member F (.ptr (.lib g!"time" g!"Duration")) g!"Seconds" = .fn [] .float64 ∧
    Typ.member F (.lib g!"time" g!"Time") g!"Add" = .fn [duration] timeT ∧
    Typ.member F (.ptr (.lib g!"time" g!"Time")) g!"Add" = .fn [duration] timeT ∧
    Typ.member F (.lib g!"time" g!"Time") g!"After" = .fn [timeT] .bool ∧
    Typ.member F (.ptr (.lib g!"time" g!"Time")) g!"After" = .fn [timeT] .bool ∧
    Typ.member F (.lib g!"time" g!"Ticker") g!"C" = .recv timeT ∧
    Typ.member F (.ptr (.lib g!"time" g!"Ticker")) g!"C" = .recv timeT ∧
    Typ.member F (.lib g!"time" g!"Ticker") g!"Stop" = .func [] none [] ∧
    Typ.member F (.ptr (.lib g!"time" g!"Ticker")) g!"Stop" = .func [] none [] ∧
    Typ.member F (.lib g!"sync" g!"RWMutex") g!"Lock" = .func [] none [] ∧
    Typ.member F (.ptr (.lib g!"sync" g!"RWMutex")) g!"Lock" = .func [] none [] ∧
    Typ.member F (.lib g!"sync" g!"RWMutex") g!"Unlock" = .func [] none [] ∧
    Typ.member F (.ptr (.lib g!"sync" g!"RWMutex")) g!"Unlock" = .func [] none [] ∧
    Typ.member F (.lib g!"sync" g!"RWMutex") g!"RLock" = .func [] none [] ∧
    Typ.member F (.ptr (.lib g!"sync" g!"RWMutex")) g!"RLock" = .func [] none [] ∧
    Typ.member F (.lib g!"sync" g!"RWMutex") g!"RUnlock" = .func [] none [] ∧
    Typ.member F (.ptr (.lib g!"sync" g!"RWMutex")) g!"RUnlock" = .func [] none [] ∧
    Typ.member F (.lib g!"io" g!"Writer") g!"Write" = .func [.slice (.basic g!"byte")] none [.int, .error] ∧
    Typ.member F (.lib g!"log" g!"Logger") g!"Println" = .func [] (some .any) [] ∧
    Typ.member F (.ptr (.lib g!"log" g!"Logger")) g!"Println" = .func [] (some .any) [] ∧
    Typ.member F (.lib logrusP g!"Entry") g!"WithFields" = .fn [.lib logrusP g!"Fields"] (.ptr (.lib logrusP g!"Entry")) ∧
    Typ.member F (.ptr (.lib logrusP g!"Entry")) g!"WithFields" = .fn [.lib logrusP g!"Fields"] (.ptr (.lib logrusP g!"Entry")) ∧
    Typ.member F (.lib logrusP g!"Entry") g!"Debug" = .func [] (some .any) [] ∧
    Typ.member F (.ptr (.lib logrusP g!"Entry")) g!"Debug" = .func [] (some .any) [] ∧
    Typ.member F (.lib logrusP g!"Entry") g!"Error" = .func [] (some .any) [] ∧
    Typ.member F (.ptr (.lib logrusP g!"Entry")) g!"Error" = .func [] (some .any) [] ∧
    Typ.member F (.lib apmP g!"Span") g!"SpanData" = .ptr (.lib apmP g!"SpanData") ∧
    Typ.member F (.ptr (.lib apmP g!"Span")) g!"SpanData" = .ptr (.lib apmP g!"SpanData") ∧
    Typ.member F (.lib apmP g!"Span") g!"End" = .func [] none [] ∧
    Typ.member F (.ptr (.lib apmP g!"Span")) g!"End" = .func [] none [] ∧
    Typ.member F (.lib apmP g!"SpanData") g!"Context" = .lib apmP g!"SpanContext" ∧
    Typ.member F (.ptr (.lib apmP g!"SpanData")) g!"Context" = .lib apmP g!"SpanContext" ∧
    Typ.member F (.lib apmP g!"SpanContext") g!"SetLabel" = .func [.string, .any] none [] ∧
    Typ.member F (.ptr (.lib apmP g!"SpanContext")) g!"SetLabel" = .func [.string, .any] none [] ∧
    Typ.member F (.lib apmP g!"Error") g!"Send" = .func [] none [] ∧
    Typ.member F (.ptr (.lib apmP g!"Error")) g!"Send" = .func [] none [] ∧
    Typ.member F (.lib tracingP g!"Span") g!"Finish" = .func [] none [] ∧
    Typ.member F (.lib tracingP g!"Span") g!"LogFields" = .func [] (some (.lib tracingLogP g!"Field")) [] ∧
    Typ.member F (.lib tracingExtP g!"boolTagName") g!"Set" = .func [.lib tracingP g!"Span", .bool] none [] ∧
    Typ.member F (.ptr (.lib tracingExtP g!"boolTagName")) g!"Set" = .func [.lib tracingP g!"Span", .bool] none [] ∧
    Typ.member F (.lib censusP g!"Span") g!"AddAttributes" = .func [] (some (.lib censusP g!"Attribute")) [] ∧
    Typ.member F (.ptr (.lib censusP g!"Span")) g!"AddAttributes" = .func [] (some (.lib censusP g!"Attribute")) [] ∧
    Typ.member F (.lib censusP g!"Span") g!"End" = .func [] none [] ∧
    Typ.member F (.ptr (.lib censusP g!"Span")) g!"End" = .func [] none [] ∧
    Typ.member F (.lib otelTraceP g!"Tracer") g!"Start" = .func [ctx, .string] (some (.lib otelTraceP g!"SpanStartOption")) [ctx, .lib otelTraceP g!"Span"] ∧
    Typ.member F (.lib otelTraceP g!"Span") g!"End" = .func [] (some (.lib otelTraceP g!"SpanEndOption")) [] ∧
    Typ.member F (.lib otelTraceP g!"Span") g!"RecordError" = .func [.error] (some (.lib otelTraceP g!"EventOption")) [] ∧
    Typ.member F (.lib otelTraceP g!"Span") g!"SetStatus" = .func [.lib otelCodesP g!"Code", .string] none [] ∧
    Typ.member F (.lib otelTraceP g!"Span") g!"SetAttributes" = .func [] (some (.lib otelAttrP g!"KeyValue")) [] ∧
    Typ.member F (.lib promP g!"SummaryOpts") g!"Namespace" = .string ∧
    Typ.member F (.ptr (.lib promP g!"SummaryOpts")) g!"Namespace" = .string ∧
    Typ.member F (.lib promP g!"SummaryOpts") g!"Subsystem" = .string ∧
    Typ.member F (.ptr (.lib promP g!"SummaryOpts")) g!"Subsystem" = .string ∧
    Typ.member F (.lib promP g!"SummaryOpts") g!"Name" = .string ∧
    Typ.member F (.ptr (.lib promP g!"SummaryOpts")) g!"Name" = .string ∧
    Typ.member F (.lib promP g!"SummaryOpts") g!"Help" = .string ∧
    Typ.member F (.ptr (.lib promP g!"SummaryOpts")) g!"Help" = .string ∧
    Typ.member F (.lib promP g!"SummaryOpts") g!"ConstLabels" = .lib promP g!"Labels" ∧
    Typ.member F (.ptr (.lib promP g!"SummaryOpts")) g!"ConstLabels" = .lib promP g!"Labels" ∧
    Typ.member F (.lib promP g!"SummaryOpts") g!"Objectives" = .map .float64 .float64 ∧
    Typ.member F (.ptr (.lib promP g!"SummaryOpts")) g!"Objectives" = .map .float64 .float64 ∧
    Typ.member F (.lib promP g!"SummaryOpts") g!"MaxAge" = duration ∧
    Typ.member F (.ptr (.lib promP g!"SummaryOpts")) g!"MaxAge" = duration ∧
    Typ.member F (.lib promP g!"SummaryOpts") g!"AgeBuckets" = .uint32 ∧
    Typ.member F (.ptr (.lib promP g!"SummaryOpts")) g!"AgeBuckets" = .uint32 ∧
    Typ.member F (.lib promP g!"SummaryOpts") g!"BufCap" = .uint32 ∧
    Typ.member F (.ptr (.lib promP g!"SummaryOpts")) g!"BufCap" = .uint32 ∧
    Typ.member F (.lib promP g!"SummaryVec") g!"WithLabelValues" = .func [] (some .string) [.lib promP g!"Observer"] ∧
    Typ.member F (.ptr (.lib promP g!"SummaryVec")) g!"WithLabelValues" = .func [] (some .string) [.lib promP g!"Observer"] ∧
    Typ.member F (.lib promP g!"Observer") g!"Observe" = .func [.float64] none [] ∧
    Typ.member F (.lib twirpP g!"Error") g!"Code" = .fn [] (.lib twirpP g!"ErrorCode") ∧
    Typ.member F (.lib twirpP g!"Error") g!"Msg" = .fn [] .string ∧
    Typ.member F (.lib twirpP g!"Error") g!"WithMeta" = .fn [.string, .string] (.lib twirpP g!"Error") ∧
    Typ.member F (.lib twirpP g!"Error") g!"Meta" = .fn [.string] .string ∧
    Typ.member F (.lib twirpP g!"Error") g!"MetaMap" = .fn [] (.map .string .string) ∧
    Typ.member F (.lib twirpP g!"Error") g!"Error" = .fn [] .string :=
  ⟨by krfl, by krfl, by krfl, by krfl, by krfl, by krfl, by krfl, by krfl, by krfl, by krfl, by krfl, by krfl, by krfl, by krfl, by krfl, by krfl, by krfl, by krfl, by krfl, by krfl, by krfl, by krfl, by krfl, by krfl, by krfl, by krfl, by krfl, by krfl, by krfl, by krfl, by krfl, by krfl, by krfl, by krfl, by krfl, by krfl, by krfl, by krfl, by krfl, by krfl, by krfl, by krfl, by krfl, by krfl, by krfl, by krfl, by krfl, by krfl, by krfl, by krfl, by krfl, by krfl, by krfl, by krfl, by krfl, by krfl, by krfl, by krfl, by krfl, by krfl, by krfl, by krfl, by krfl, by krfl, by krfl, by krfl, by krfl, by krfl, by krfl, by krfl, by krfl, by krfl, by krfl, by krfl, by krfl, by krfl, by krfl, by krfl, by krfl, by krfl, by krfl⟩

/-- They exist; some need a variable. -/
theorem lib_has {F : FileTypes} :
    (∀ b, Typ.HasMember F (.lib g!"context" g!"Context") g!"Deadline" b = (false = true → b = true)) ∧
    (∀ b, Typ.HasMember F (.lib g!"context" g!"Context") g!"Done" b = (false = true → b = true)) ∧
    (∀ b, Typ.HasMember F (.lib g!"context" g!"Context") g!"Err" b = (false = true → b = true)) ∧
    (∀ b, Typ.HasMember F (.lib g!"context" g!"Context") g!"Value" b = (false = true → b = true)) ∧
    (∀ b, Typ.HasMember F (.lib g!"time" g!"Duration") g!"Seconds" b = (false = true → b = true)) ∧
    (∀ b, Typ.HasMember F (.ptr (.lib g!"time" g!"Duration")) g!"Seconds" b = (false = true → b = true)) ∧
    (∀ b, Typ.HasMember F (.lib g!"time" g!"Time") g!"Add" b = (false = true → b = true)) ∧
    (∀ b, Typ.HasMember F (.ptr (.lib g!"time" g!"Time")) g!"Add" b = (false = true → b = true)) ∧
    (∀ b, Typ.HasMember F (.lib g!"time" g!"Time") g!"After" b = (false = true → b = true)) ∧
    (∀ b, Typ.HasMember F (.ptr (.lib g!"time" g!"Time")) g!"After" b = (false = true → b = true)) ∧
    (∀ b, Typ.HasMember F (.lib g!"time" g!"Ticker") g!"C" b = True) ∧
    (∀ b, Typ.HasMember F (.ptr (.lib g!"time" g!"Ticker")) g!"C" b = True) ∧
    (∀ b, Typ.HasMember F (.lib g!"time" g!"Ticker") g!"Stop" b = (true = true → b = true)) ∧
    (∀ b, Typ.HasMember F (.ptr (.lib g!"time" g!"Ticker")) g!"Stop" b = (false = true → b = true)) ∧
    (∀ b, Typ.HasMember F (.lib g!"sync" g!"RWMutex") g!"Lock" b = (true = true → b = true)) ∧
    (∀ b, Typ.HasMember F (.ptr (.lib g!"sync" g!"RWMutex")) g!"Lock" b = (false = true → b = true)) ∧
    (∀ b, Typ.HasMember F (.lib g!"sync" g!"RWMutex") g!"Unlock" b = (true = true → b = true)) ∧
    (∀ b, Typ.HasMember F (.ptr (.lib g!"sync" g!"RWMutex")) g!"Unlock" b = (false = true → b = true)) ∧
    (∀ b, Typ.HasMember F (.lib g!"sync" g!"RWMutex") g!"RLock" b = (true = true → b = true)) ∧
    (∀ b, Typ.HasMember F (.ptr (.lib g!"sync" g!"RWMutex")) g!"RLock" b = (false = true → b = true)) ∧
    (∀ b, Typ.HasMember F (.lib g!"sync" g!"RWMutex") g!"RUnlock" b = (true = true → b = true)) ∧
    (∀ b, Typ.HasMember F (.ptr (.lib g!"sync" g!"RWMutex")) g!"RUnlock" b = (false = true → b = true)) ∧
    (∀ b, Typ.HasMember F (.lib g!"io" g!"Writer") g!"Write" b = (false = true → b = true)) ∧
    (∀ b, Typ.HasMember F (.lib g!"log" g!"Logger") g!"Println" b = (true = true → b = true)) ∧
    (∀ b, Typ.HasMember F (.ptr (.lib g!"log" g!"Logger")) g!"Println" b = (false = true → b = true)) ∧
    (∀ b, Typ.HasMember F (.lib logrusP g!"Entry") g!"WithFields" b = (true = true → b = true)) ∧
    (∀ b, Typ.HasMember F (.ptr (.lib logrusP g!"Entry")) g!"WithFields" b = (false = true → b = true)) ∧
    (∀ b, Typ.HasMember F (.lib logrusP g!"Entry") g!"Debug" b = (true = true → b = true)) ∧
    (∀ b, Typ.HasMember F (.ptr (.lib logrusP g!"Entry")) g!"Debug" b = (false = true → b = true)) ∧
    (∀ b, Typ.HasMember F (.lib logrusP g!"Entry") g!"Error" b = (true = true → b = true)) ∧
    (∀ b, Typ.HasMember F (.ptr (.lib logrusP g!"Entry")) g!"Error" b = (false = true → b = true)) ∧
    (∀ b, Typ.HasMember F (.lib apmP g!"Span") g!"SpanData" b = True) ∧
    (∀ b, Typ.HasMember F (.ptr (.lib apmP g!"Span")) g!"SpanData" b = True) ∧
    (∀ b, Typ.HasMember F (.lib apmP g!"Span") g!"End" b = (true = true → b = true)) ∧
    (∀ b, Typ.HasMember F (.ptr (.lib apmP g!"Span")) g!"End" b = (false = true → b = true)) ∧
    (∀ b, Typ.HasMember F (.lib apmP g!"SpanData") g!"Context" b = True) ∧
    (∀ b, Typ.HasMember F (.ptr (.lib apmP g!"SpanData")) g!"Context" b = True) ∧
    (∀ b, Typ.HasMember F (.lib apmP g!"SpanContext") g!"SetLabel" b = (true = true → b = true)) ∧
    (∀ b, Typ.HasMember F (.ptr (.lib apmP g!"SpanContext")) g!"SetLabel" b = (false = true → b = true)) ∧
    (∀ b, Typ.HasMember F (.lib apmP g!"Error") g!"Send" b = (true = true → b = true)) ∧
    (∀ b, Typ.HasMember F (.ptr (.lib apmP g!"Error")) g!"Send" b = (false = true → b = true)) ∧
    (∀ b, Typ.HasMember F (.lib tracingP g!"Span") g!"Finish" b = (false = true → b = true)) ∧
    (∀ b, Typ.HasMember F (.lib tracingP g!"Span") g!"LogFields" b = (false = true → b = true)) ∧
    (∀ b, Typ.HasMember F (.lib tracingExtP g!"boolTagName") g!"Set" b = (false = true → b = true)) ∧
    (∀ b, Typ.HasMember F (.ptr (.lib tracingExtP g!"boolTagName")) g!"Set" b = (false = true → b = true)) ∧
    (∀ b, Typ.HasMember F (.lib censusP g!"Span") g!"AddAttributes" b = (true = true → b = true)) ∧
    (∀ b, Typ.HasMember F (.ptr (.lib censusP g!"Span")) g!"AddAttributes" b = (false = true → b = true)) ∧
    (∀ b, Typ.HasMember F (.lib censusP g!"Span") g!"End" b = (true = true → b = true)) ∧
    (∀ b, Typ.HasMember F (.ptr (.lib censusP g!"Span")) g!"End" b = (false = true → b = true)) ∧
    (∀ b, Typ.HasMember F (.lib otelTraceP g!"Tracer") g!"Start" b = (false = true → b = true)) ∧
    (∀ b, Typ.HasMember F (.lib otelTraceP g!"Span") g!"End" b = (false = true → b = true)) ∧
    (∀ b, Typ.HasMember F (.lib otelTraceP g!"Span") g!"RecordError" b = (false = true → b = true)) ∧
    (∀ b, Typ.HasMember F (.lib otelTraceP g!"Span") g!"SetStatus" b = (false = true → b = true)) ∧
    (∀ b, Typ.HasMember F (.lib otelTraceP g!"Span") g!"SetAttributes" b = (false = true → b = true)) ∧
    (∀ b, Typ.HasMember F (.lib promP g!"SummaryOpts") g!"Namespace" b = True) ∧
    (∀ b, Typ.HasMember F (.ptr (.lib promP g!"SummaryOpts")) g!"Namespace" b = True) ∧
    (∀ b, Typ.HasMember F (.lib promP g!"SummaryOpts") g!"Subsystem" b = True) ∧
    (∀ b, Typ.HasMember F (.ptr (.lib promP g!"SummaryOpts")) g!"Subsystem" b = True) ∧
    (∀ b, Typ.HasMember F (.lib promP g!"SummaryOpts") g!"Name" b = True) ∧
    (∀ b, Typ.HasMember F (.ptr (.lib promP g!"SummaryOpts")) g!"Name" b = True) ∧
    (∀ b, Typ.HasMember F (.lib promP g!"SummaryOpts") g!"Help" b = True) ∧
    (∀ b, Typ.HasMember F (.ptr (.lib promP g!"SummaryOpts")) g!"Help" b = True) ∧
    (∀ b, Typ.HasMember F (.lib promP g!"SummaryOpts") g!"ConstLabels" b = True) ∧
    (∀ b, Typ.HasMember F (.ptr (.lib promP g!"SummaryOpts")) g!"ConstLabels" b = True) ∧
    (∀ b, Typ.HasMember F (.lib promP g!"SummaryOpts") g!"Objectives" b = True) ∧
    (∀ b, Typ.HasMember F (.ptr (.lib promP g!"SummaryOpts")) g!"Objectives" b = True) ∧
    (∀ b, Typ.HasMember F (.lib promP g!"SummaryOpts") g!"MaxAge" b = True) ∧
    (∀ b, Typ.HasMember F (.ptr (.lib promP g!"SummaryOpts")) g!"MaxAge" b = True) ∧
    (∀ b, Typ.HasMember F (.lib promP g!"SummaryOpts") g!"AgeBuckets" b = True) ∧
    (∀ b, Typ.HasMember F (.ptr (.lib promP g!"SummaryOpts")) g!"AgeBuckets" b = True) ∧
    (∀ b, Typ.HasMember F (.lib promP g!"SummaryOpts") g!"BufCap" b = True) ∧
    (∀ b, Typ.HasMember F (.ptr (.lib promP g!"SummaryOpts")) g!"BufCap" b = True) ∧
    (∀ b, Typ.HasMember F (.lib promP g!"SummaryVec") g!"WithLabelValues" b = (true = true → b = true)) ∧
    (∀ b, Typ.HasMember F (.ptr (.lib promP g!"SummaryVec")) g!"WithLabelValues" b = (false = true → b = true)) ∧
    (∀ b, Typ.HasMember F (.lib promP g!"Observer") g!"Observe" b = (false = true → b = true)) ∧
    (∀ b, Typ.HasMember F (.lib twirpP g!"Error") g!"Code" b = (false = true → b = true)) ∧
    (∀ b, Typ.HasMember F (.lib twirpP g!"Error") g!"Msg" b = (false = true → b = true)) ∧
    (∀ b, Typ.HasMember F (.lib twirpP g!"Error") g!"WithMeta" b = (false = true → b = true)) ∧
    (∀ b, Typ.HasMember F (.lib twirpP g!"Error") g!"Meta" b = (false = true → b = true)) ∧
    (∀ b, Typ.HasMember F (.lib twirpP g!"Error") g!"MetaMap" b = (false = true → b = true)) ∧
    (∀ b, Typ.HasMember F (.lib twirpP g!"Error") g!"Error" b = (false = true → b = true)) :=
  ⟨fun _ => by krfl, fun _ => by krfl, fun _ => by krfl, fun _ => by krfl, fun _ => by krfl, fun _ => by krfl, fun _ => by krfl, fun _ => by krfl, fun _ => by krfl, fun _ => by krfl, fun _ => by krfl, fun _ => by krfl, fun _ => by krfl, fun _ => by krfl, fun _ => by krfl, fun _ => by krfl, fun _ => by krfl, fun _ => by krfl, fun _ => by krfl, fun _ => by krfl, fun _ => by krfl, fun _ => by krfl, fun _ => by krfl, fun _ => by krfl, fun _ => by krfl, fun _ => by krfl, fun _ => by krfl, fun _ => by krfl, fun _ => by krfl, fun _ => by krfl, fun _ => by krfl, fun _ => by krfl, fun _ => by krfl, fun _ => by krfl, fun _ => by krfl, fun _ => by krfl, fun _ => by krfl, fun _ => by krfl, fun _ => by krfl, fun _ => by krfl, fun _ => by krfl, fun _ => by krfl, fun _ => by krfl, fun _ => by krfl, fun _ => by krfl, fun _ => by krfl, fun _ => by krfl, fun _ => by krfl, fun _ => by krfl, fun _ => by krfl, fun _ => by krfl, fun _ => by krfl, fun _ => by krfl, fun _ => by krfl, fun _ => by krfl, fun _ => by krfl, fun _ => by krfl, fun _ => by krfl, fun _ => by krfl, fun _ => by krfl, fun _ => by krfl, fun _ => by krfl, fun _ => by krfl, fun _ => by krfl, fun _ => by krfl, fun _ => by krfl, fun _ => by krfl, fun _ => by krfl, fun _ => by krfl, fun _ => by krfl, fun _ => by krfl, fun _ => by krfl, fun _ => by krfl, fun _ => by krfl, fun _ => by krfl, fun _ => by krfl, fun _ => by krfl, fun _ => by krfl, fun _ => by krfl, fun _ => by krfl, fun _ => by krfl⟩

/-- The fields. -/
theorem lib_fields {F : FileTypes} :
    Typ.field F (.lib g!"time" g!"Ticker") g!"C" = some (.recv timeT) ∧
    Typ.field F (.ptr (.lib g!"time" g!"Ticker")) g!"C" = some (.recv timeT) ∧
    Typ.field F (.lib apmP g!"Span") g!"SpanData" = some (.ptr (.lib apmP g!"SpanData")) ∧
    Typ.field F (.ptr (.lib apmP g!"Span")) g!"SpanData" = some (.ptr (.lib apmP g!"SpanData")) ∧
    Typ.field F (.lib apmP g!"SpanData") g!"Context" = some (.lib apmP g!"SpanContext") ∧
    Typ.field F (.ptr (.lib apmP g!"SpanData")) g!"Context" = some (.lib apmP g!"SpanContext") ∧
    Typ.field F (.lib promP g!"SummaryOpts") g!"Namespace" = some (.string) ∧
    Typ.field F (.ptr (.lib promP g!"SummaryOpts")) g!"Namespace" = some (.string) ∧
    Typ.field F (.lib promP g!"SummaryOpts") g!"Subsystem" = some (.string) ∧
    Typ.field F (.ptr (.lib promP g!"SummaryOpts")) g!"Subsystem" = some (.string) ∧
    Typ.field F (.lib promP g!"SummaryOpts") g!"Name" = some (.string) ∧
    Typ.field F (.ptr (.lib promP g!"SummaryOpts")) g!"Name" = some (.string) ∧
    Typ.field F (.lib promP g!"SummaryOpts") g!"Help" = some (.string) ∧
    Typ.field F (.ptr (.lib promP g!"SummaryOpts")) g!"Help" = some (.string) ∧
    Typ.field F (.lib promP g!"SummaryOpts") g!"ConstLabels" = some (.lib promP g!"Labels") ∧
    Typ.field F (.ptr (.lib promP g!"SummaryOpts")) g!"ConstLabels" = some (.lib promP g!"Labels") ∧
    Typ.field F (.lib promP g!"SummaryOpts") g!"Objectives" = some (.map .float64 .float64) ∧
    Typ.field F (.ptr (.lib promP g!"SummaryOpts")) g!"Objectives" = some (.map .float64 .float64) ∧
    Typ.field F (.lib promP g!"SummaryOpts") g!"MaxAge" = some (duration) ∧
    Typ.field F (.ptr (.lib promP g!"SummaryOpts")) g!"MaxAge" = some (duration) ∧
    Typ.field F (.lib promP g!"SummaryOpts") g!"AgeBuckets" = some (.uint32) ∧
    Typ.field F (.ptr (.lib promP g!"SummaryOpts")) g!"AgeBuckets" = some (.uint32) ∧
    Typ.field F (.lib promP g!"SummaryOpts") g!"BufCap" = some (.uint32) ∧
    Typ.field F (.ptr (.lib promP g!"SummaryOpts")) g!"BufCap" = some (.uint32) :=
  ⟨by krfl, by krfl, by krfl, by krfl, by krfl, by krfl, by krfl, by krfl, by krfl, by krfl, by krfl, by krfl, by krfl, by krfl, by krfl, by krfl, by krfl, by krfl, by krfl, by krfl, by krfl, by krfl, by krfl, by krfl⟩

end Gowrap.Tmpl
