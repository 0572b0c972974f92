import Verif.Model.GoStr
/-!
# The text of the built-in templates

The files of /repo/templates and the constant `headerTemplate`, line by line and unchanged.
-/

namespace Gowrap.Text

open Gowrap

/-- templates/circuitbreaker:1-73 -/
def circuitbreaker : Str :=
  g!"import (\n" ++ (
  g!"\t\"errors\"\n" ++ (
  g!"\t\"sync\"\n" ++ (
  g!"\t\"time\"\n" ++ (
  g!")\n" ++ (
  g!"\n" ++ (
  g!"{{ $decorator := (or .Vars.DecoratorName (printf \"%sWithCircuitBreaker\" .Interface.Name)) }}\n" ++ (
  g!"\n" ++ (
  g!"// {{$decorator}} implements {{.Interface.Type}} instrumented with circuit breaker\n" ++ (
  g!"type {{$decorator}} struct {\n" ++ (
  g!"  {{.Interface.Type}}\n" ++ (
  g!"\n" ++ (
  g!"  _lock sync.RWMutex\n" ++ (
  g!"  _maxConsecutiveErrors int\n" ++ (
  g!"  _consecutiveErrors int\n" ++ (
  g!"  _openInterval time.Duration\n" ++ (
  g!"  _closesAt *time.Time\n" ++ (
  g!"  _ignoreErrors []error\n" ++ (
  g!"}\n" ++ (
  g!"\n" ++ (
  g!"// New{{$decorator}} breakes a circuit after consecutiveErrors of errors and closes the circuit again after openInterval of time.\n" ++ (
  g!"// If, after openInterval, the first method call results in error we open and close again.\n" ++ (
  g!"func New{{$decorator}}(base {{.Interface.Type}}, consecutiveErrors int, openInterval time.Duration, ignoreErrors ...error) (*{{$decorator}}) {\n" ++ (
  g!"  return &{{$decorator}}{\n" ++ (
  g!"    {{.Interface.Name}}: base, \n" ++ (
  g!"    _maxConsecutiveErrors: consecutiveErrors,\n" ++ (
  g!"    _openInterval: openInterval,\n" ++ (
  g!"    _ignoreErrors: ignoreErrors,\n" ++ (
  g!"  }\n" ++ (
  g!"}\n" ++ (
  g!"\n" ++ (
  g!"{{range $method := .Interface.Methods}}\n" ++ (
  g!"  {{- if $method.ReturnsError}}\n" ++ (
  g!"    // {{$method.Name}} implements {{$.Interface.Type}}\n" ++ (
  g!"    func (_d *{{$decorator}}) {{$method.Declaration}} {\n" ++ (
  g!"      _d._lock.RLock()\n" ++ (
  g!"\n" ++ (
  g!"      if _d._closesAt != nil && _d._closesAt.After(time.Now()) {\n" ++ (
  g!"        _d._lock.RUnlock()\n" ++ (
  g!"        err = errors.New(\"{{$decorator}}: circuit is open\")\n" ++ (
  g!"        return\n" ++ (
  g!"      }\n" ++ (
  g!"      _d._lock.RUnlock()\n" ++ (
  g!"\n" ++ (
  g!"      {{$method.ResultsNames}} = _d.{{$.Interface.Name}}.{{$method.Call}}\n" ++ (
  g!"      _d._lock.Lock()\n" ++ (
  g!"      defer _d._lock.Unlock()\n" ++ (
  g!"\n" ++ (
  g!"      if err == nil {\n" ++ (
  g!"        _d._consecutiveErrors = 0\n" ++ (
  g!"        _d._closesAt = nil\n" ++ (
  g!"        return\n" ++ (
  g!"      }\n" ++ (
  g!"\n" ++ (
  g!"      for _, _e := range _d._ignoreErrors {\n" ++ (
  g!"        if errors.Is(err, _e) {\n" ++ (
  g!"          _d._consecutiveErrors = 0\n" ++ (
  g!"          _d._closesAt = nil\n" ++ (
  g!"          return\n" ++ (
  g!"        }\n" ++ (
  g!"      }\n" ++ (
  g!"\n" ++ (
  g!"      _d._consecutiveErrors++\n" ++ (
  g!"\n" ++ (
  g!"      if _d._consecutiveErrors >= _d._maxConsecutiveErrors {\n" ++ (
  g!"        closesAt := time.Now().Add(_d._openInterval)\n" ++ (
  g!"        _d._closesAt = &closesAt\n" ++ (
  g!"      }\n" ++ (
  g!"\n" ++ (
  g!"      return \n" ++ (
  g!"    }\n" ++ (
  g!"  {{end}}\n" ++ (
  g!"{{end}}\n"))))))))))))))))))))))))))))))))))))))))))))))))))))))))))))))))))))))))

/-- templates/elasticapm:1-83 -/
def elasticapm : Str :=
  g!"import (\n" ++ (
  g!"\t\"context\"\n" ++ (
  g!"\t\"go.elastic.co/apm/v2\"\n" ++ (
  g!")\n" ++ (
  g!"\n" ++ (
  g!"{{ $decorator := (or .Vars.DecoratorName (printf \"%sAPMTracing\" .Interface.Name)) }}\n" ++ (
  g!"{{ $decorator_option := (or .Vars.DecoratorName (printf \"%sAPMTracingOption\" .Interface.Name)) }}\n" ++ (
  g!"{{ $component := (or .Vars.ComponentName (printf \"%s\" (down .Interface.Name))) }}\n" ++ (
  g!"\n" ++ (
  g!"// {{$decorator}} implements {{.Interface.Type}} interface with all methods wrapped\n" ++ (
  g!"// with go.elastic.co/apm/v2\n" ++ (
  g!"type {{$decorator}} struct {\n" ++ (
  g!"    base         {{.Interface.Type}}\n" ++ (
  g!"\tstartSpan    func(ctx context.Context, name, spanType string) (*apm.Span, context.Context)\n" ++ (
  g!"\tendSpan      func(span *apm.Span)\n" ++ (
  g!"\tsetLabel \t func(span *apm.Span, key string, value interface{})\n" ++ (
  g!"\tcaptureError func(ctx context.Context, err error)\n" ++ (
  g!"\tspanType     string\n" ++ (
  g!"}\n" ++ (
  g!"\n" ++ (
  g!"type {{$decorator_option}} func (v *{{$decorator}})\n" ++ (
  g!"\n" ++ (
  g!"func {{$decorator}}WithUsingSetLabel() {{$decorator_option}} {\n" ++ (
  g!"\treturn func(v *{{$decorator}}) {\n" ++ (
  g!"\t\tv.setLabel = func(span *apm.Span, key string, value interface{}) {\n" ++ (
  g!"\t\t\tspan.SpanData.Context.SetLabel(key, value)\n" ++ (
  g!"\t\t}\n" ++ (
  g!"\t}\n" ++ (
  g!"}\n" ++ (
  g!"\n" ++ (
  g!"func {{$decorator}}WithSpanType(spanType string) {{$decorator_option}} {\n" ++ (
  g!"\treturn func(v *{{$decorator}}) {\n" ++ (
  g!"\t\tv.spanType = spanType\n" ++ (
  g!"\t}\n" ++ (
  g!"}\n" ++ (
  g!"\n" ++ (
  g!"// New{{$decorator}} returns an instance of the {{.Interface.Type}} decorated with go.elastic.co/apm/v2\n" ++ (
  g!"func New{{$decorator}}(base {{.Interface.Type}}, opts ...{{$decorator}}Option) {{$decorator}} {\n" ++ (
  g!"    r := {{$decorator}} {\n" ++ (
  g!"        base: base,\n" ++ (
  g!"  \t\tstartSpan: apm.StartSpan,\n" ++ (
  g!"  \t\tendSpan: func(span *apm.Span) {\n" ++ (
  g!"  \t\t    span.End()\n" ++ (
  g!"  \t\t},\n" ++ (
  g!"  \t\tsetLabel: func(span *apm.Span, key string, value interface{}) {\n" ++ (
  g!"        },\n" ++ (
  g!"  \t\tcaptureError: func(ctx context.Context, err error) {\n" ++ (
  g!"  \t\t\tapm.CaptureError(ctx, err).Send()\n" ++ (
  g!"  \t\t},\n" ++ (
  g!"  \t\tspanType: \"{{ $component }}\",\n" ++ (
  g!"    }\n" ++ (
  g!"\n" ++ (
  g!"    for _, fn := range opts {\n" ++ (
  g!"        fn(&r)\n" ++ (
  g!"    }\n" ++ (
  g!"    return r\n" ++ (
  g!"}\n" ++ (
  g!"\n" ++ (
  g!"{{range $method := .Interface.Methods}}\n" ++ (
  g!"  {{if $method.AcceptsContext}}\n" ++ (
  g!"    {{ $span_name := (printf \"%s.%s\" $component $method.Name) }}\n" ++ (
  g!"    // {{$method.Name}} implements {{$.Interface.Type}}\n" ++ (
  g!"    func (_d {{$decorator}}) {{$method.Declaration}} {\n" ++ (
  g!"        {{- if $method.AcceptsContext }}\n" ++ (
  g!"            span, ctx := _d.startSpan(ctx, \"{{ $span_name }}\", _d.spanType)\n" ++ (
  g!"            defer func() {\n" ++ (
  g!"                {{- if $method.ReturnsError -}}\n" ++ (
  g!"                    if err != nil {\n" ++ (
  g!"                        _d.captureError(ctx, err)\n" ++ (
  g!"                    }\n" ++ (
  g!"                {{- end }}\n" ++ (
  g!"                _d.endSpan(span)\n" ++ (
  g!"            }()\n" ++ (
  g!"            {{- range $param := $method.Params -}}\n" ++ (
  g!"                {{- if not (eq $param.Name \"ctx\") -}}\n" ++ (
  g!"                    _d.setLabel(span, \"{{ (snake $param.Name) }}\", {{ $param.Name }})\n" ++ (
  g!"                {{- end}}\n" ++ (
  g!"            {{ end }}\n" ++ (
  g!"        {{ end }}\n" ++ (
  g!"        {{$method.Pass \"_d.base.\"}}\n" ++ (
  g!"    }\n" ++ (
  g!"  {{end}}\n" ++ (
  g!"{{end}}\n"))))))))))))))))))))))))))))))))))))))))))))))))))))))))))))))))))))))))))))))))))

/-- templates/fallback:1-106 -/
def fallback : Str :=
  g!"import (\n" ++ (
  g!"\t\"errors\"\n" ++ (
  g!"\t\"fmt\"\n" ++ (
  g!"\t\"strings\"\n" ++ (
  g!"\t\"time\"\n" ++ (
  g!")\n" ++ (
  g!"\n" ++ (
  g!"{{ $decorator := (or .Vars.DecoratorName (printf \"%sWithFallback\" .Interface.Name)) }}\n" ++ (
  g!"\n" ++ (
  g!"// {{$decorator}} implements {{.Interface.Type}} interface wrapped with Prometheus metrics\n" ++ (
  g!"type {{$decorator}} struct {\n" ++ (
  g!"  implementations []{{.Interface.Type}}\n" ++ (
  g!"  interval time.Duration\n" ++ (
  g!"}\n" ++ (
  g!"\n" ++ (
  g!"// New{{$decorator}} takes several implementations of the {{.Interface.Type}} and returns an instance of {{.Interface.Type}}\n" ++ (
  g!"// which calls all implementations concurrently with given interval and returns first non-error response.\n" ++ (
  g!"func New{{$decorator}}(interval time.Duration, impls ...{{.Interface.Type}}) {{$decorator}} {\n" ++ (
  g!"  return {{$decorator}}{implementations: impls, interval: interval}\n" ++ (
  g!"}\n" ++ (
  g!"\n" ++ (
  g!"{{range $method := .Interface.Methods}}\n" ++ (
  g!"  // {{$method.Name}} implements {{$.Interface.Type}}\n" ++ (
  g!"  func (_d {{$decorator}}) {{$method.Declaration}} {\n" ++ (
  g!"      type _resultStruct {{$method.ResultsStruct}}\n" ++ (
  g!"      var _ch = make(chan _resultStruct, 0)\n" ++ (
  g!"      var _next = make(chan struct{}, len(_d.implementations))\n" ++ (
  g!"      {{if $method.ReturnsError}}var _errorsList []string{{end}}\n" ++ (
  g!"      var _ticker = time.NewTicker(_d.interval)\n" ++ (
  g!"      defer _ticker.Stop()\n" ++ (
  g!"\n" ++ (
  g!"      {{- if $method.AcceptsContext}}\n" ++ (
  g!"        ctx, _cancelFunc := context.WithCancel(ctx)\n" ++ (
  g!"        defer _cancelFunc()\n" ++ (
  g!"      {{end}}\n" ++ (
  g!"\n" ++ (
  g!"      go func() {\n" ++ (
  g!"        for _i :=0; _i < len(_d.implementations); _i++ {\n" ++ (
  g!"          go func(_impl {{$.Interface.Type}}) {\n" ++ (
  g!"            {{if $method.HasResults}}{{$method.ResultsNames}} := {{end}}_impl.{{$method.Call}}\n" ++ (
  g!"            {{- if $method.ReturnsError}}\n" ++ (
  g!"              if err != nil {\n" ++ (
  g!"                err = fmt.Errorf(\"%T: %v\", _impl, err)\n" ++ (
  g!"              }\n" ++ (
  g!"            {{end}}\n" ++ (
  g!"\n" ++ (
  g!"            {{if $method.AcceptsContext}}\n" ++ (
  g!"              select {\n" ++ (
  g!"                case _ch <- _resultStruct{ {{$method.ResultsNames}} }:\n" ++ (
  g!"                case <-ctx.Done():\n" ++ (
  g!"              }\n" ++ (
  g!"            {{else}}\n" ++ (
  g!"              select {\n" ++ (
  g!"                case _ch <- _resultStruct{ {{$method.ResultsNames}} }:\n" ++ (
  g!"                default:\n" ++ (
  g!"              }\n" ++ (
  g!"            {{end}}\n" ++ (
  g!"          }(_d.implementations[_i])\n" ++ (
  g!"\n" ++ (
  g!"          if _i < len(_d.implementations) - 1 {\n" ++ (
  g!"            select {\n" ++ (
  g!"              case <-_next:\n" ++ (
  g!"              case <-_ticker.C:\n" ++ (
  g!"            }\n" ++ (
  g!"          }\n" ++ (
  g!"        }\n" ++ (
  g!"      }()\n" ++ (
  g!"\n" ++ (
  g!"        {{if $method.AcceptsContext}}\n" ++ (
  g!"          for {\n" ++ (
  g!"              select {\n" ++ (
  g!"              case {{if $method.HasResults}}_res := {{end}} <- _ch:\n" ++ (
  g!"                {{- if $method.ReturnsError}}\n" ++ (
  g!"                  if _res.err == nil {\n" ++ (
  g!"                    {{ $method.ReturnStruct \"_res\" }}\n" ++ (
  g!"                  }\n" ++ (
  g!"                  _next <- struct{}{}\n" ++ (
  g!"                  _errorsList = append(_errorsList, _res.err.Error())\n" ++ (
  g!"                  if len(_errorsList) == len(_d.implementations) {\n" ++ (
  g!"                    err =  errors.New(strings.Join(_errorsList, \";\"))\n" ++ (
  g!"                    return\n" ++ (
  g!"                  }\n" ++ (
  g!"                {{else}}\n" ++ (
  g!"                  {{ $method.ReturnStruct \"_res\" }}\n" ++ (
  g!"                {{end -}}\n" ++ (
  g!"              {{if $method.AcceptsContext}}case <-ctx.Done():\n" ++ (
  g!"                {{if $method.ReturnsError}}\n" ++ (
  g!"                  err = fmt.Errorf(\"%w: %s\", ctx.Err(), strings.Join(_errorsList, \";\"))\n" ++ (
  g!"                {{end}}\n" ++ (
  g!"                return\n" ++ (
  g!"              {{end -}}\n" ++ (
  g!"              }\n" ++ (
  g!"          }\n" ++ (
  g!"        {{else}}\n" ++ (
  g!"          {{if $method.HasResults}}_res := {{end}} <- _ch\n" ++ (
  g!"          {{- if $method.ReturnsError}}\n" ++ (
  g!"            if _res.err == nil {\n" ++ (
  g!"              {{ $method.ReturnStruct \"_res\" }}\n" ++ (
  g!"            }\n" ++ (
  g!"            _errorsList = append(_errorsList, _res.err.Error())\n" ++ (
  g!"          {{else}}\n" ++ (
  g!"            {{ $method.ReturnStruct \"_res\" }}\n" ++ (
  g!"          {{end -}}\n" ++ (
  g!"        {{end}}\n" ++ (
  g!"  }\n" ++ (
  g!"{{end}}\n")))))))))))))))))))))))))))))))))))))))))))))))))))))))))))))))))))))))))))))))))))))))))))))))))))))))))

/-- templates/grpc_validate:1-37 -/
def grpcValidate : Str :=
  g!"import (\n" ++ (
  g!"  grpc_codes \"google.golang.org/grpc/codes\"\n" ++ (
  g!"  grpc_status \"google.golang.org/grpc/status\"\n" ++ (
  g!")\n" ++ (
  g!"\n" ++ (
  g!"{{ $decorator := (or .Vars.DecoratorName (printf \"%sWithGRPCValidation\" .Interface.Name)) }}\n" ++ (
  g!"\n" ++ (
  g!"// {{$decorator}} implements {{.Interface.Type}} interface instrumented with GRPC request validation\n" ++ (
  g!"type {{$decorator}} struct {\n" ++ (
  g!"  {{.Interface.Type}}\n" ++ (
  g!"}\n" ++ (
  g!"\n" ++ (
  g!"// New{{$decorator}} returns {{$decorator}}\n" ++ (
  g!"func New{{$decorator}} (base {{.Interface.Type}}) {{$decorator}} {\n" ++ (
  g!"  return {{$decorator}} {\n" ++ (
  g!"    {{.Interface.Name}}: base,\n" ++ (
  g!"  }\n" ++ (
  g!"}\n" ++ (
  g!"\n" ++ (
  g!"{{range $method := .Interface.Methods}}\n" ++ (
  g!"  {{- if $method.ReturnsError}}\n" ++ (
  g!"  // {{$method.Name}} implements {{$.Interface.Type}}\n" ++ (
  g!"  func (_d {{$decorator}}) {{$method.Declaration}} {\n" ++ (
  g!"    {{- range $param := $method.Params}}\n" ++ (
  g!"      {{- if not ( and $method.AcceptsContext (eq $param.Name \"ctx\")) -}}\n" ++ (
  g!"        if _v, _ok := interface{}({{$param.Name}}).(interface{ Validate() error}); _ok {\n" ++ (
  g!"          if err = _v.Validate(); err != nil {\n" ++ (
  g!"            err = grpc_status.Error(grpc_codes.InvalidArgument, err.Error())\n" ++ (
  g!"            return\n" ++ (
  g!"          }\n" ++ (
  g!"        }\n" ++ (
  g!"      {{end}}\n" ++ (
  g!"    {{end}}\n" ++ (
  g!"    {{$method.Pass (printf \"_d.%s.\" $.Interface.Name) }}\n" ++ (
  g!"  }\n" ++ (
  g!"  {{end}}\n" ++ (
  g!"{{end}}\n"))))))))))))))))))))))))))))))))))))

/-- templates/log:1-50 -/
def log : Str :=
  g!"import (\n" ++ (
  g!"  \"io\"\n" ++ (
  g!"  \"log\"\n" ++ (
  g!")\n" ++ (
  g!"\n" ++ (
  g!"{{ $decorator := (or .Vars.DecoratorName (printf \"%sWithLog\" .Interface.Name)) }}\n" ++ (
  g!"\n" ++ (
  g!"// {{$decorator}} implements {{.Interface.Type}} that is instrumented with logging\n" ++ (
  g!"type {{$decorator}} struct {\n" ++ (
  g!"  _stdlog, _errlog *log.Logger\n" ++ (
  g!"  _base {{.Interface.Type}}\n" ++ (
  g!"}\n" ++ (
  g!"\n" ++ (
  g!"// New{{$decorator}} instruments an implementation of the {{.Interface.Type}} with simple logging\n" ++ (
  g!"func New{{$decorator}}(base {{.Interface.Type}}, stdout, stderr io.Writer) {{$decorator}} {\n" ++ (
  g!"  return {{$decorator}}{\n" ++ (
  g!"    _base: base, \n" ++ (
  g!"    _stdlog: log.New(stdout, \"\", log.LstdFlags),\n" ++ (
  g!"    _errlog: log.New(stderr, \"\", log.LstdFlags),\n" ++ (
  g!"  }\n" ++ (
  g!"}\n" ++ (
  g!"\n" ++ (
  g!"{{range $method := .Interface.Methods}}\n" ++ (
  g!"  // {{$method.Name}} implements {{$.Interface.Type}}\n" ++ (
  g!"  func (_d {{$decorator}}) {{$method.Declaration}} {\n" ++ (
  g!"      {{- if $method.HasParams}}\n" ++ (
  g!"        _params := []interface{}{\"{{$decorator}}: calling {{$method.Name}} with params:\", {{$method.ParamsNames}} }\n" ++ (
  g!"        _d._stdlog.Println(_params...)\n" ++ (
  g!"      {{else}}\n" ++ (
  g!"        _d._stdlog.Println(\"{{$decorator}}: calling {{$method.Name}}\")\n" ++ (
  g!"      {{end -}}\n" ++ (
  g!"      defer func() {\n" ++ (
  g!"        {{- if $method.HasResults}}\n" ++ (
  g!"          _results := []interface{}{\"{{$decorator}}: {{$method.Name}} returned results:\", {{$method.ResultsNames}} }\n" ++ (
  g!"          {{- if $method.ReturnsError}}\n" ++ (
  g!"            if err != nil {\n" ++ (
  g!"              _d._errlog.Println(_results...)\n" ++ (
  g!"            } else {\n" ++ (
  g!"              _d._stdlog.Println(_results...)\n" ++ (
  g!"            }\n" ++ (
  g!"          {{else}}   \n" ++ (
  g!"            _d._stdlog.Println(_results...)\n" ++ (
  g!"          {{end -}}\n" ++ (
  g!"        {{else}}\n" ++ (
  g!"          _d._stdlog.Println(\"{{$decorator}}: {{$method.Name}} finished\")\n" ++ (
  g!"        {{end -}}\n" ++ (
  g!"      }()\n" ++ (
  g!"      {{ $method.Pass \"_d._base.\" }}\n" ++ (
  g!"  }\n" ++ (
  g!"{{end}}\n")))))))))))))))))))))))))))))))))))))))))))))))))

/-- templates/logrus:1-47 -/
def logrus : Str :=
  g!"import (\n" ++ (
  g!"  \"io\"\n" ++ (
  g!"  \"github.com/sirupsen/logrus\"\n" ++ (
  g!")\n" ++ (
  g!"\n" ++ (
  g!"{{ $decorator := (or .Vars.DecoratorName (printf \"%sWithLogrus\" .Interface.Name)) }}\n" ++ (
  g!"\n" ++ (
  g!"// {{$decorator}} implements {{.Interface.Type}} that is instrumented with logrus logger\n" ++ (
  g!"type {{$decorator}} struct {\n" ++ (
  g!"  _log *logrus.Entry\n" ++ (
  g!"  _base {{.Interface.Type}}\n" ++ (
  g!"}\n" ++ (
  g!"\n" ++ (
  g!"// New{{$decorator}} instruments an implementation of the {{.Interface.Type}} with simple logging\n" ++ (
  g!"func New{{$decorator}}(base {{.Interface.Type}}, log *logrus.Entry) {{$decorator}} {\n" ++ (
  g!"  return {{$decorator}}{\n" ++ (
  g!"    _base: base,\n" ++ (
  g!"    _log: log,\n" ++ (
  g!"  }\n" ++ (
  g!"}\n" ++ (
  g!"\n" ++ (
  g!"{{range $method := .Interface.Methods}}\n" ++ (
  g!"  // {{$method.Name}} implements {{$.Interface.Type}}\n" ++ (
  g!"  func (_d {{$decorator}}) {{$method.Declaration}} {\n" ++ (
  g!"      {{- if $method.HasParams}}\n" ++ (
  g!"        _d._log.WithFields(logrus.Fields({{$method.ParamsMap}})).Debug(\"{{$decorator}}: calling {{$method.Name}}\")\n" ++ (
  g!"      {{else}}\n" ++ (
  g!"        _d._log.Debug(\"{{$decorator}}: calling {{$method.Name}}\")\n" ++ (
  g!"      {{end -}}\n" ++ (
  g!"      defer func() {\n" ++ (
  g!"        {{- if $method.HasResults}}\n" ++ (
  g!"          {{- if $method.ReturnsError}}\n" ++ (
  g!"            if err != nil {\n" ++ (
  g!"              _d._log.WithFields(logrus.Fields({{$method.ResultsMap}})).Error(\"{{$decorator}}: method {{$method.Name}} returned an error\" )\n" ++ (
  g!"            } else {\n" ++ (
  g!"              _d._log.WithFields(logrus.Fields({{$method.ResultsMap}})).Debug(\"{{$decorator}}: method {{$method.Name}} finished\")\n" ++ (
  g!"            }\n" ++ (
  g!"          {{else}}\n" ++ (
  g!"            _d._log.WithFields(logrus.Fields({{$method.ResultsMap}})).Debug(\"{{$decorator}}: method {{$method.Name}} finished\")\n" ++ (
  g!"          {{end -}}\n" ++ (
  g!"        {{else}}\n" ++ (
  g!"          _d._log.Debug(\"{{$decorator}}: {{$method.Name}} finished\")\n" ++ (
  g!"        {{end -}}\n" ++ (
  g!"      }()\n" ++ (
  g!"      {{ $method.Pass \"_d._base.\" }}\n" ++ (
  g!"  }\n" ++ (
  g!"{{end}}\n"))))))))))))))))))))))))))))))))))))))))))))))

/-- templates/opencensus:1-49 -/
def opencensus : Str :=
  g!"import (\n" ++ (
  g!"\t\"go.opencensus.io/trace\"\n" ++ (
  g!")\n" ++ (
  g!"\n" ++ (
  g!"{{ $decorator := (or .Vars.DecoratorName (printf \"%sWithTracing\" .Interface.Name)) }}\n" ++ (
  g!"\n" ++ (
  g!"// {{$decorator}} implements {{.Interface.Type}} interface instrumented with opentracing spans\n" ++ (
  g!"type {{$decorator}} struct {\n" ++ (
  g!"  {{.Interface.Type}}\n" ++ (
  g!"  _instance string\n" ++ (
  g!"  _spanDecorator func(span *trace.Span, params, results map[string]interface{})\n" ++ (
  g!"}\n" ++ (
  g!"\n" ++ (
  g!"// New{{$decorator}} returns {{$decorator}}\n" ++ (
  g!"func New{{$decorator}} (base {{.Interface.Type}}, instance string, spanDecorator ...func(span *trace.Span, params, results map[string]interface{})) {{$decorator}} {\n" ++ (
  g!"  d := {{$decorator}} {\n" ++ (
  g!"    {{.Interface.Name}}: base,\n" ++ (
  g!"    _instance: instance,\n" ++ (
  g!"  }\n" ++ (
  g!"\n" ++ (
  g!"  if len(spanDecorator) > 0 && spanDecorator[0] != nil {\n" ++ (
  g!"    d._spanDecorator = spanDecorator[0]\n" ++ (
  g!"  }\n" ++ (
  g!"\n" ++ (
  g!"  return d\n" ++ (
  g!"}\n" ++ (
  g!"\n" ++ (
  g!"{{range $method := .Interface.Methods}}\n" ++ (
  g!"  {{if $method.AcceptsContext}}\n" ++ (
  g!"    // {{$method.Name}} implements {{$.Interface.Type}}\n" ++ (
  g!"    func (_d {{$decorator}}) {{$method.Declaration}} {\n" ++ (
  g!"      ctx, _span := trace.StartSpan(ctx, _d._instance + \".{{$.Interface.Type}}.{{$method.Name}}\")\n" ++ (
  g!"      defer func() { \n" ++ (
  g!"        if _d._spanDecorator != nil {\n" ++ (
  g!"          _d._spanDecorator(_span, {{$method.ParamsMap}}, {{$method.ResultsMap}})\n" ++ (
  g!"        }{{- if $method.ReturnsError}} else if err != nil {\n" ++ (
  g!"          _span.AddAttributes(\n" ++ (
  g!"            trace.BoolAttribute(\"error\", true),\n" ++ (
  g!"            trace.StringAttribute(\"event\", \"error\"),\n" ++ (
  g!"            trace.StringAttribute(\"message\", err.Error()),\n" ++ (
  g!"          )\n" ++ (
  g!"        }\n" ++ (
  g!"        {{end}}\n" ++ (
  g!"        _span.End()\n" ++ (
  g!"      }()\n" ++ (
  g!"      {{$method.Pass (printf \"_d.%s.\" $.Interface.Name) }}\n" ++ (
  g!"    }\n" ++ (
  g!"  {{end}}\n" ++ (
  g!"{{end}}\n"))))))))))))))))))))))))))))))))))))))))))))))))

/-- templates/opentelemetry:1-56 -/
def opentelemetry : Str :=
  g!"import (\n" ++ (
  g!"    \"context\"\n" ++ (
  g!"\n" ++ (
  g!"    _codes \"go.opentelemetry.io/otel/codes\"\n" ++ (
  g!"    \"go.opentelemetry.io/otel\"\n" ++ (
  g!"    \"go.opentelemetry.io/otel/attribute\"\n" ++ (
  g!"    \"go.opentelemetry.io/otel/trace\"\n" ++ (
  g!")\n" ++ (
  g!"\n" ++ (
  g!"{{ $decorator := (or .Vars.DecoratorName (printf \"%sWithTracing\" .Interface.Name)) }}\n" ++ (
  g!"{{ $spanNameType := (or .Vars.SpanNamePrefix .Interface.Name) }}\n" ++ (
  g!"\n" ++ (
  g!"// {{$decorator}} implements {{.Interface.Name}} interface instrumented with open telemetry spans\n" ++ (
  g!"type {{$decorator}} struct {\n" ++ (
  g!"  {{.Interface.Type}}\n" ++ (
  g!"  _instance string\n" ++ (
  g!"  _spanDecorator func(span trace.Span, params, results map[string]interface{})\n" ++ (
  g!"}\n" ++ (
  g!"\n" ++ (
  g!"// New{{$decorator}} returns {{$decorator}}\n" ++ (
  g!"func New{{$decorator}} (base {{.Interface.Type}}, instance string, spanDecorator ...func(span trace.Span, params, results map[string]interface{})) {{$decorator}} {\n" ++ (
  g!"  d := {{$decorator}} {\n" ++ (
  g!"    {{.Interface.Name}}: base,\n" ++ (
  g!"    _instance: instance,\n" ++ (
  g!"  }\n" ++ (
  g!"\n" ++ (
  g!"  if len(spanDecorator) > 0 && spanDecorator[0] != nil {\n" ++ (
  g!"    d._spanDecorator = spanDecorator[0]\n" ++ (
  g!"  }\n" ++ (
  g!"\n" ++ (
  g!"  return d\n" ++ (
  g!"}\n" ++ (
  g!"\n" ++ (
  g!"{{range $method := .Interface.Methods}}\n" ++ (
  g!"  {{if $method.AcceptsContext}}\n" ++ (
  g!"    // {{$method.Name}} implements {{$.Interface.Name}}\n" ++ (
  g!"func (_d {{$decorator}}) {{$method.Declaration}} {\n" ++ (
  g!"  ctx, _span := otel.Tracer(_d._instance).Start(ctx, \"{{$spanNameType}}.{{$method.Name}}\")\n" ++ (
  g!"  defer func() {\n" ++ (
  g!"    if _d._spanDecorator != nil {\n" ++ (
  g!"      _d._spanDecorator(_span, {{$method.ParamsMap}}, {{$method.ResultsMap}})\n" ++ (
  g!"    }{{- if $method.ReturnsError}} else if err != nil {\n" ++ (
  g!"      _span.RecordError(err)\n" ++ (
  g!"      _span.SetStatus(_codes.Error, err.Error())\n" ++ (
  g!"      _span.SetAttributes(\n" ++ (
  g!"        attribute.String(\"event\", \"error\"),\n" ++ (
  g!"        attribute.String(\"message\", err.Error()),\n" ++ (
  g!"      )\n" ++ (
  g!"    }\n" ++ (
  g!"    {{end}}\n" ++ (
  g!"    _span.End()\n" ++ (
  g!"  }()\n" ++ (
  g!"  {{$method.Pass (printf \"_d.%s.\" $.Interface.Name) }}\n" ++ (
  g!"}\n" ++ (
  g!"  {{end}}\n" ++ (
  g!"{{end}}\n")))))))))))))))))))))))))))))))))))))))))))))))))))))))

/-- templates/opentracing:1-51 -/
def opentracing : Str :=
  g!"import (\n" ++ (
  g!"\topentracing \"github.com/opentracing/opentracing-go\"\n" ++ (
  g!"\t_ext \"github.com/opentracing/opentracing-go/ext\"\n" ++ (
  g!"\t_log \"github.com/opentracing/opentracing-go/log\"\n" ++ (
  g!")\n" ++ (
  g!"\n" ++ (
  g!"{{ $decorator := (or .Vars.DecoratorName (printf \"%sWithTracing\" .Interface.Name)) }}\n" ++ (
  g!"\n" ++ (
  g!"// {{$decorator}} implements {{.Interface.Type}} interface instrumented with opentracing spans\n" ++ (
  g!"type {{$decorator}} struct {\n" ++ (
  g!"  {{.Interface.Type}}\n" ++ (
  g!"  _instance string\n" ++ (
  g!"  _spanDecorator func(span opentracing.Span, params, results map[string]interface{})\n" ++ (
  g!"}\n" ++ (
  g!"\n" ++ (
  g!"// New{{$decorator}} returns {{$decorator}}\n" ++ (
  g!"func New{{$decorator}} (base {{.Interface.Type}}, instance string, spanDecorator ...func(span opentracing.Span, params, results map[string]interface{})) {{$decorator}} {\n" ++ (
  g!"  d := {{$decorator}} {\n" ++ (
  g!"    {{.Interface.Name}}: base,\n" ++ (
  g!"    _instance: instance,\n" ++ (
  g!"  }\n" ++ (
  g!"\n" ++ (
  g!"  if len(spanDecorator) > 0 && spanDecorator[0] != nil {\n" ++ (
  g!"    d._spanDecorator = spanDecorator[0]\n" ++ (
  g!"  }\n" ++ (
  g!"\n" ++ (
  g!"  return d\n" ++ (
  g!"}\n" ++ (
  g!"\n" ++ (
  g!"{{range $method := .Interface.Methods}}\n" ++ (
  g!"  {{if $method.AcceptsContext}}\n" ++ (
  g!"    // {{$method.Name}} implements {{$.Interface.Type}}\n" ++ (
  g!"    func (_d {{$decorator}}) {{$method.Declaration}} {\n" ++ (
  g!"      _span, ctx := opentracing.StartSpanFromContext(ctx, _d._instance + \".{{$.Interface.Type}}.{{$method.Name}}\")\n" ++ (
  g!"      defer func() { \n" ++ (
  g!"        if _d._spanDecorator != nil {\n" ++ (
  g!"          _d._spanDecorator(_span, {{$method.ParamsMap}}, {{$method.ResultsMap}})\n" ++ (
  g!"        }{{- if $method.ReturnsError}} else if err != nil {\n" ++ (
  g!"          _ext.Error.Set(_span, true)\n" ++ (
  g!"          _span.LogFields(\n" ++ (
  g!"            _log.String(\"event\", \"error\"),\n" ++ (
  g!"            _log.String(\"message\", err.Error()),\n" ++ (
  g!"          )\n" ++ (
  g!"        }\n" ++ (
  g!"        {{end}}\n" ++ (
  g!"        _span.Finish()\n" ++ (
  g!"      }()\n" ++ (
  g!"      {{$method.Pass (printf \"_d.%s.\" $.Interface.Name) }}\n" ++ (
  g!"    }\n" ++ (
  g!"  {{end}}\n" ++ (
  g!"{{end}}\n"))))))))))))))))))))))))))))))))))))))))))))))))))

/-- templates/prometheus:1-50 -/
def prometheus : Str :=
  g!"import (\n" ++ (
  g!"  \"time\"\n" ++ (
  g!"\n" ++ (
  g!"  \"github.com/prometheus/client_golang/prometheus\"\n" ++ (
  g!"  \"github.com/prometheus/client_golang/prometheus/promauto\"\n" ++ (
  g!")\n" ++ (
  g!"\n" ++ (
  g!"{{ $decorator := (or .Vars.DecoratorName (printf \"%sWithPrometheus\" .Interface.Name)) }}\n" ++ (
  g!"{{ $metric_name := (or .Vars.MetricName (printf \"%s_duration_seconds\" (down .Interface.Name))) }}\n" ++ (
  g!"\n" ++ (
  g!"// {{$decorator}} implements {{.Interface.Type}} interface with all methods wrapped\n" ++ (
  g!"// with Prometheus metrics\n" ++ (
  g!"type {{$decorator}} struct {\n" ++ (
  g!"  base {{.Interface.Type}}\n" ++ (
  g!"  instanceName string\n" ++ (
  g!"}\n" ++ (
  g!"\n" ++ (
  g!"var {{down .Interface.Name}}DurationSummaryVec = promauto.NewSummaryVec(\n" ++ (
  g!"  prometheus.SummaryOpts{\n" ++ (
  g!"    Name: \"{{$metric_name}}\",\n" ++ (
  g!"    Help: \"{{ down .Interface.Name }} runtime duration and result\",\n" ++ (
  g!"    MaxAge: time.Minute,\n" ++ (
  g!"    Objectives: map[float64]float64{0.5: 0.05, 0.9: 0.01, 0.99: 0.001},\n" ++ (
  g!"  },\n" ++ (
  g!"  []string{\"instance_name\", \"method\", \"result\"})\n" ++ (
  g!"\n" ++ (
  g!"// New{{.Interface.Name}}WithPrometheus returns an instance of the {{.Interface.Type}} decorated with prometheus summary metric\n" ++ (
  g!"func New{{$decorator}}(base {{.Interface.Type}}, instanceName string) {{$decorator}} {\n" ++ (
  g!"  return {{$decorator}} {\n" ++ (
  g!"    base: base,\n" ++ (
  g!"    instanceName: instanceName,\n" ++ (
  g!"  }\n" ++ (
  g!"}\n" ++ (
  g!"\n" ++ (
  g!"{{range $method := .Interface.Methods}}\n" ++ (
  g!"  // {{$method.Name}} implements {{$.Interface.Type}}\n" ++ (
  g!"  func (_d {{$decorator}}) {{$method.Declaration}} {\n" ++ (
  g!"      _since := time.Now()\n" ++ (
  g!"      defer func() {\n" ++ (
  g!"        result := \"ok\"\n" ++ (
  g!"        {{- if $method.ReturnsError}}\n" ++ (
  g!"          if err != nil {\n" ++ (
  g!"            result = \"error\"\n" ++ (
  g!"          }\n" ++ (
  g!"        {{end}}\n" ++ (
  g!"        {{down $.Interface.Name}}DurationSummaryVec.WithLabelValues(_d.instanceName, \"{{$method.Name}}\", result).Observe(time.Since(_since).Seconds())\n" ++ (
  g!"      }()\n" ++ (
  g!"    {{$method.Pass \"_d.base.\"}}\n" ++ (
  g!"  }\n" ++ (
  g!"{{end}}\n")))))))))))))))))))))))))))))))))))))))))))))))))

/-- templates/ratelimit:1-51 -/
def ratelimit : Str :=
  g!"{{ $decorator := (or .Vars.DecoratorName (printf \"%sWithRateLimit\" .Interface.Name)) }}\n" ++ (
  g!"\n" ++ (
  g!"import (\n" ++ (
  g!"  \"time\"\n" ++ (
  g!")\n" ++ (
  g!"\n" ++ (
  g!"// {{$decorator}} implements {{.Interface.Type}}\n" ++ (
  g!"type {{$decorator}} struct {\n" ++ (
  g!"  _base {{.Interface.Type}}\n" ++ (
  g!"  _ticks chan time.Time\n" ++ (
  g!"}\n" ++ (
  g!"\n" ++ (
  g!"// New{{$decorator}} instruments an implementation of the {{.Interface.Type}} with rate limiting\n" ++ (
  g!"func New{{$decorator}}(base {{.Interface.Type}}, burst int, rps float64) *{{$decorator}} {\n" ++ (
  g!"  d := &{{$decorator}}{\n" ++ (
  g!"    _base: base,\n" ++ (
  g!"    _ticks: make(chan time.Time, burst),\n" ++ (
  g!"  }\n" ++ (
  g!"\n" ++ (
  g!"  now := time.Now()\n" ++ (
  g!"  for i := 0; i < burst; i++ {\n" ++ (
  g!"    d._ticks <- now \n" ++ (
  g!"  }\n" ++ (
  g!"\n" ++ (
  g!"  delay := time.Duration(float64(time.Second) / rps)\n" ++ (
  g!"\n" ++ (
  g!"  go func() {\n" ++ (
  g!"    for t := range time.Tick(delay) {\n" ++ (
  g!"      d._ticks <- t\n" ++ (
  g!"    }\n" ++ (
  g!"  }()\n" ++ (
  g!"\n" ++ (
  g!"  return d\n" ++ (
  g!"}\n" ++ (
  g!"\n" ++ (
  g!"{{range $method := .Interface.Methods}}\n" ++ (
  g!"  // {{$method.Name}} implements {{$.Interface.Type}}\n" ++ (
  g!"  func (_d *{{$decorator}}) {{$method.Declaration}} {\n" ++ (
  g!"    {{- if (and $method.AcceptsContext $method.ReturnsError)}}\n" ++ (
  g!"      select {\n" ++ (
  g!"      case <-ctx.Done():\n" ++ (
  g!"        err = ctx.Err()\n" ++ (
  g!"        return\n" ++ (
  g!"      case <-_d._ticks:\n" ++ (
  g!"      }\n" ++ (
  g!"    {{else}}\n" ++ (
  g!"      <-_d._ticks\n" ++ (
  g!"    {{end}}\n" ++ (
  g!"    {{ $method.Pass \"_d._base.\" }}\n" ++ (
  g!"  }\n" ++ (
  g!"{{end}}\n"))))))))))))))))))))))))))))))))))))))))))))))))))

/-- templates/retry:1-48 -/
def retry : Str :=
  g!"import(\n" ++ (
  g!"  \"time\"\n" ++ (
  g!")\n" ++ (
  g!"\n" ++ (
  g!"{{ $decorator := (or .Vars.DecoratorName (printf \"%sWithRetry\" .Interface.Name)) }}\n" ++ (
  g!"\n" ++ (
  g!"// {{$decorator}} implements {{.Interface.Type}} interface instrumented with retries\n" ++ (
  g!"type {{$decorator}} struct {\n" ++ (
  g!"  {{.Interface.Type}}\n" ++ (
  g!"  _retryCount int\n" ++ (
  g!"  _retryInterval time.Duration\n" ++ (
  g!"}\n" ++ (
  g!"\n" ++ (
  g!"// New{{$decorator}} returns {{$decorator}}\n" ++ (
  g!"func New{{$decorator}} (base {{.Interface.Type}}, retryCount int, retryInterval time.Duration) {{$decorator}} {\n" ++ (
  g!"  return {{$decorator}} {\n" ++ (
  g!"    {{.Interface.Name}}: base,\n" ++ (
  g!"    _retryCount: retryCount,\n" ++ (
  g!"    _retryInterval: retryInterval,\n" ++ (
  g!"  }\n" ++ (
  g!"}\n" ++ (
  g!"\n" ++ (
  g!"{{range $method := .Interface.Methods}}\n" ++ (
  g!"  {{if $method.ReturnsError}}\n" ++ (
  g!"    // {{$method.Name}} implements {{$.Interface.Type}}\n" ++ (
  g!"    func (_d {{$decorator}}) {{$method.Declaration}} {\n" ++ (
  g!"      {{$method.ResultsNames}} = _d.{{$.Interface.Name}}.{{$method.Call}}\n" ++ (
  g!"      if err == nil || _d._retryCount < 1 {\n" ++ (
  g!"        return\n" ++ (
  g!"      }\n" ++ (
  g!"      _ticker:= time.NewTicker(_d._retryInterval)\n" ++ (
  g!"      defer _ticker.Stop()\n" ++ (
  g!"      for _i := 0; _i < _d._retryCount && err != nil; _i++ {\n" ++ (
  g!"        {{- if $method.AcceptsContext}}\n" ++ (
  g!"          select {\n" ++ (
  g!"          case <-ctx.Done():\n" ++ (
  g!"            return\n" ++ (
  g!"          case <-_ticker.C:\n" ++ (
  g!"          }\n" ++ (
  g!"        {{else}}\n" ++ (
  g!"          <-_ticker.C\n" ++ (
  g!"        {{end -}}\n" ++ (
  g!"        {{$method.ResultsNames}} = _d.{{$.Interface.Name}}.{{$method.Call}}\n" ++ (
  g!"      }\n" ++ (
  g!"      return\n" ++ (
  g!"    }\n" ++ (
  g!"  {{end}}\n" ++ (
  g!"{{end}}\n")))))))))))))))))))))))))))))))))))))))))))))))

/-- templates/robinpool:1-41 -/
def robinpool : Str :=
  g!"import (\n" ++ (
  g!"\t\"sync/atomic\"\n" ++ (
  g!"\t\"errors\"\n" ++ (
  g!")\n" ++ (
  g!"\n" ++ (
  g!"{{ $decorator := (or .Vars.DecoratorName (printf \"%sRoundRobinPool\" .Interface.Name)) }}\n" ++ (
  g!"\n" ++ (
  g!"// {{$decorator}} implements {{.Interface.Type}} that uses pool of {{.Interface.Type}}\n" ++ (
  g!"type {{$decorator}} struct {\n" ++ (
  g!"  pool []{{.Interface.Type}}\n" ++ (
  g!"  poolSize uint32\n" ++ (
  g!"  counter uint32\n" ++ (
  g!"}\n" ++ (
  g!"\n" ++ (
  g!"// New{{$decorator}} takes several implementations of the {{.Interface.Type}} and returns an instance of the {{.Interface.Type}} \n" ++ (
  g!"// that picks one of the given implementations using Round-robin algorithm and delegates method call to it\n" ++ (
  g!"func New{{$decorator}}(pool ...{{.Interface.Type}}) (*{{$decorator}}, error) {\n" ++ (
  g!"  if len(pool) == 0 {\n" ++ (
  g!"    return nil, errors.New(\"empty pool\")\n" ++ (
  g!"  }\n" ++ (
  g!"  \n" ++ (
  g!"  return &{{$decorator}}{pool: pool, poolSize: uint32(len(pool))}, nil\n" ++ (
  g!"}\n" ++ (
  g!"\n" ++ (
  g!"// MustNew{{$decorator}} takes several implementations of the {{.Interface.Type}} and returns an instance of the {{.Interface.Type}} \n" ++ (
  g!"// that picks one of the given implementations using Round-robin algorithm and delegates method call to it.\n" ++ (
  g!"func MustNew{{$decorator}}(pool ...{{.Interface.Type}}) *{{$decorator}} {\n" ++ (
  g!"  if len(pool) == 0 {\n" ++ (
  g!"    panic(\"empty pool\")\n" ++ (
  g!"  }\n" ++ (
  g!"  \n" ++ (
  g!"  return &{{$decorator}}{pool: pool, poolSize: uint32(len(pool))}\n" ++ (
  g!"}\n" ++ (
  g!"\n" ++ (
  g!"{{range $method := .Interface.Methods}}\n" ++ (
  g!"  // {{$method.Name}} implements {{$.Interface.Type}}\n" ++ (
  g!"  func (_d *{{$decorator}}) {{$method.Declaration}} {\n" ++ (
  g!"    _counter := atomic.AddUint32(&_d.counter, 1)\n" ++ (
  g!"    {{ $method.Pass \"_d.pool[_counter % _d.poolSize].\" }}\n" ++ (
  g!"  }\n" ++ (
  g!"{{end}}\n"))))))))))))))))))))))))))))))))))))))))

/-- templates/syncpool:1-32 -/
def syncpool : Str :=
  g!"{{ $decorator := (or .Vars.DecoratorName (printf \"%sPool\" .Interface.Name)) }}\n" ++ (
  g!"\n" ++ (
  g!"// {{$decorator}} implements {{.Interface.Type}} that uses pool of {{.Interface.Type}}\n" ++ (
  g!"type {{$decorator}} struct {\n" ++ (
  g!"  pool chan {{.Interface.Type}}\n" ++ (
  g!"}\n" ++ (
  g!"\n" ++ (
  g!"// New{{$decorator}} takes several implementations of the {{.Interface.Type}} and returns an instance of the {{.Interface.Type}} \n" ++ (
  g!"// that uses sync.Pool of given implemetations\n" ++ (
  g!"func New{{$decorator}}(impls ...{{.Interface.Type}}) {{$decorator}} {\n" ++ (
  g!"  if len(impls) == 0 {\n" ++ (
  g!"    panic(\"empty pool\")\n" ++ (
  g!"  }\n" ++ (
  g!"\n" ++ (
  g!"  pool := make(chan {{.Interface.Type}}, len(impls))\n" ++ (
  g!"  for _, i := range impls {\n" ++ (
  g!"    pool <- i\n" ++ (
  g!"  }\n" ++ (
  g!"  \n" ++ (
  g!"  return {{$decorator}}{pool: pool}\n" ++ (
  g!"}\n" ++ (
  g!"\n" ++ (
  g!"{{range $method := .Interface.Methods}}\n" ++ (
  g!"  // {{$method.Name}} implements {{$.Interface.Type}}\n" ++ (
  g!"  func (_d {{$decorator}}) {{$method.Declaration}} {\n" ++ (
  g!"      _impl := <-_d.pool\n" ++ (
  g!"      defer func() {\n" ++ (
  g!"        _d.pool <- _impl\n" ++ (
  g!"      }()\n" ++ (
  g!"      {{ $method.Pass \"_impl.\" }}\n" ++ (
  g!"  }\n" ++ (
  g!"{{end}}\n")))))))))))))))))))))))))))))))

/-- templates/timeout:1-40 -/
def timeout : Str :=
  g!"import (\n" ++ (
  g!"  \"context\"\n" ++ (
  g!"  \"time\"\n" ++ (
  g!")\n" ++ (
  g!"\n" ++ (
  g!"{{ $decorator := (or .Vars.DecoratorName (printf \"%sWithTimeout\" .Interface.Name)) }}\n" ++ (
  g!"\n" ++ (
  g!"// {{$decorator}} implements {{.Interface.Type}} interface instrumented with timeouts\n" ++ (
  g!"type {{$decorator}} struct {\n" ++ (
  g!"  {{.Interface.Type}}\n" ++ (
  g!"  config {{$decorator}}Config\n" ++ (
  g!"}\n" ++ (
  g!"\n" ++ (
  g!"type {{$decorator}}Config struct {\n" ++ (
  g!"  {{range $method := .Interface.Methods}}\n" ++ (
  g!"    {{if $method.AcceptsContext}}{{$method.Name}}Timeout time.Duration{{ end }}\n" ++ (
  g!"  {{end}}\n" ++ (
  g!"}\n" ++ (
  g!"\n" ++ (
  g!"// New{{$decorator}} returns {{$decorator}}\n" ++ (
  g!"func New{{$decorator}} (base {{.Interface.Type}}, config {{$decorator}}Config) {{$decorator}} {\n" ++ (
  g!"  return {{$decorator}} {\n" ++ (
  g!"    {{.Interface.Name}}: base,\n" ++ (
  g!"    config: config,\n" ++ (
  g!"  }\n" ++ (
  g!"}\n" ++ (
  g!"\n" ++ (
  g!"{{range $method := .Interface.Methods}}\n" ++ (
  g!"  {{if $method.AcceptsContext  }}\n" ++ (
  g!"    // {{$method.Name}} implements {{$.Interface.Type}}\n" ++ (
  g!"    func (_d {{$decorator}}) {{$method.Declaration}} {\n" ++ (
  g!"      var cancelFunc func()\n" ++ (
  g!"      if _d.config.{{$method.Name}}Timeout > 0 {\n" ++ (
  g!"        ctx, cancelFunc = context.WithTimeout(ctx, _d.config.{{$method.Name}}Timeout)\n" ++ (
  g!"        defer cancelFunc()\n" ++ (
  g!"      }\n" ++ (
  g!"      {{$method.Pass (printf \"_d.%s.\" $.Interface.Name) }}\n" ++ (
  g!"    }\n" ++ (
  g!"  {{end}}\n" ++ (
  g!"{{end}}\n")))))))))))))))))))))))))))))))))))))))

/-- templates/twirp_error:1-44 -/
def twirpError : Str :=
  g!"import (\n" ++ (
  g!"  \"github.com/twitchtv/twirp\"\n" ++ (
  g!")\n" ++ (
  g!"\n" ++ (
  g!"{{ $decorator := (or .Vars.DecoratorName (printf \"%sWithTwirpError\" .Interface.Name)) }}\n" ++ (
  g!"\n" ++ (
  g!"// {{$decorator}} implements {{.Interface.Type}} interface instrumented such that the request data is injected into twirp.Error as metadata\n" ++ (
  g!"type {{$decorator}} struct {\n" ++ (
  g!"  {{.Interface.Type}}\n" ++ (
  g!"}\n" ++ (
  g!"\n" ++ (
  g!"// New{{$decorator}} returns {{$decorator}}\n" ++ (
  g!"func New{{$decorator}} (base {{.Interface.Type}}) {{$decorator}} {\n" ++ (
  g!"  return {{$decorator}} {\n" ++ (
  g!"    {{.Interface.Name}}: base,\n" ++ (
  g!"  }\n" ++ (
  g!"}\n" ++ (
  g!"\n" ++ (
  g!"{{range $method := .Interface.Methods}}\n" ++ (
  g!"  // {{$method.Name}} implements {{$.Interface.Type}}\n" ++ (
  g!"  func (_d {{$decorator}}) {{$method.Declaration}} {\n" ++ (
  g!"    {{- if $method.ReturnsError}}\n" ++ (
  g!"      {{range $param := $method.Params}}\n" ++ (
  g!"        {{if not ( and $method.AcceptsContext (eq $param.Name \"ctx\")) }}\n" ++ (
  g!"          defer injectRequestDataToError({{$param.Name}} ,&err)\n" ++ (
  g!"        {{end}}\n" ++ (
  g!"      {{end}}\n" ++ (
  g!"    {{end}}\n" ++ (
  g!"    {{$method.Pass (printf \"_d.%s.\" $.Interface.Name) }}\n" ++ (
  g!"  }\n" ++ (
  g!"{{end}}\n" ++ (
  g!"\n" ++ (
  g!"func injectRequestDataToError(req interface{}, perr *error) {\n" ++ (
  g!"\terr := *perr\n" ++ (
  g!"\tif err != nil {\n" ++ (
  g!"\t\ttwerr, ok := err.(twirp.Error)\n" ++ (
  g!"\t\tif !ok {\n" ++ (
  g!"\t\t\ttwerr = twirp.InternalErrorWith(err)\n" ++ (
  g!"\t\t}\n" ++ (
  g!"\n" ++ (
  g!"\t\tjsonReq, _ := json.Marshal(req)\n" ++ (
  g!"\t\t*perr = twerr.WithMeta(\"request\", string(jsonReq))\n" ++ (
  g!"\t}\n" ++ (
  g!"}\n")))))))))))))))))))))))))))))))))))))))))))

/-- templates/twirp_validate:1-36 -/
def twirpValidate : Str :=
  g!"import (\n" ++ (
  g!"  \"github.com/twitchtv/twirp\"\n" ++ (
  g!")\n" ++ (
  g!"\n" ++ (
  g!"{{ $decorator := (or .Vars.DecoratorName (printf \"%sWithTwirpValidation\" .Interface.Name)) }}\n" ++ (
  g!"\n" ++ (
  g!"// {{$decorator}} implements {{.Interface.Type}} interface instrumented with arguments validation\n" ++ (
  g!"type {{$decorator}} struct {\n" ++ (
  g!"  {{.Interface.Type}}\n" ++ (
  g!"}\n" ++ (
  g!"\n" ++ (
  g!"// New{{$decorator}} returns {{$decorator}}\n" ++ (
  g!"func New{{$decorator}} (base {{.Interface.Type}}) {{$decorator}} {\n" ++ (
  g!"  return {{$decorator}} {\n" ++ (
  g!"    {{.Interface.Name}}: base,\n" ++ (
  g!"  }\n" ++ (
  g!"}\n" ++ (
  g!"\n" ++ (
  g!"{{range $method := .Interface.Methods}}\n" ++ (
  g!"  // {{$method.Name}} implements {{$.Interface.Type}}\n" ++ (
  g!"  func (_d {{$decorator}}) {{$method.Declaration}} {\n" ++ (
  g!"    {{- if $method.ReturnsError}}\n" ++ (
  g!"      {{range $param := $method.Params}}\n" ++ (
  g!"        {{if not ( and $method.AcceptsContext (eq $param.Name \"ctx\")) }}\n" ++ (
  g!"          if _v, _ok := interface{}({{$param.Name}}).(interface{ Validate() error}); _ok {\n" ++ (
  g!"            if err = _v.Validate(); err != nil {\n" ++ (
  g!"              err = twirp.NewError(twirp.InvalidArgument, err.Error())\n" ++ (
  g!"              return\n" ++ (
  g!"            }\n" ++ (
  g!"          }\n" ++ (
  g!"        {{end}}\n" ++ (
  g!"      {{end}}\n" ++ (
  g!"    {{end}}\n" ++ (
  g!"    {{$method.Pass (printf \"_d.%s.\" $.Interface.Name) }}\n" ++ (
  g!"  }\n" ++ (
  g!"{{end}}\n")))))))))))))))))))))))))))))))))))

/-- templates/validate:1-31 -/
def validate : Str :=
  g!"{{ $decorator := (or .Vars.DecoratorName (printf \"%sWithValidation\" .Interface.Name)) }}\n" ++ (
  g!"\n" ++ (
  g!"// {{$decorator}} implements {{.Interface.Type}} interface instrumented with arguments validation\n" ++ (
  g!"type {{$decorator}} struct {\n" ++ (
  g!"  {{.Interface.Type}}\n" ++ (
  g!"}\n" ++ (
  g!"\n" ++ (
  g!"// New{{$decorator}} returns {{$decorator}}\n" ++ (
  g!"func New{{$decorator}} (base {{.Interface.Type}}) {{$decorator}} {\n" ++ (
  g!"  return {{$decorator}} {\n" ++ (
  g!"    {{.Interface.Name}}: base,\n" ++ (
  g!"  }\n" ++ (
  g!"}\n" ++ (
  g!"\n" ++ (
  g!"{{range $method := .Interface.Methods}}\n" ++ (
  g!"  // {{$method.Name}} implements {{$.Interface.Type}}\n" ++ (
  g!"  func (_d {{$decorator}}) {{$method.Declaration}} {\n" ++ (
  g!"    {{- if $method.ReturnsError}}\n" ++ (
  g!"      {{range $param := $method.Params}}\n" ++ (
  g!"        {{if not ( and $method.AcceptsContext (eq $param.Name \"ctx\")) }}\n" ++ (
  g!"          if _v, _ok := interface{}({{$param.Name}}).(interface{ Validate() error}); _ok {\n" ++ (
  g!"            if err = _v.Validate(); err != nil {\n" ++ (
  g!"              return\n" ++ (
  g!"            }\n" ++ (
  g!"          }\n" ++ (
  g!"        {{end}}\n" ++ (
  g!"      {{end}}\n" ++ (
  g!"    {{end}}\n" ++ (
  g!"    {{$method.Pass (printf \"_d.%s.\" $.Interface.Name) }}\n" ++ (
  g!"  }\n" ++ (
  g!"{{end}}\n"))))))))))))))))))))))))))))))

/-- cmd_generate.go:303-316 -/
def header : Str :=
  g!"// Code generated by gowrap. DO NOT EDIT.\n" ++ (
  g!"// template: {{.Options.HeaderVars.Template}}\n" ++ (
  g!"// gowrap: http://github.com/hexdigest/gowrap\n" ++ (
  g!"\n" ++ (
  g!"package {{.Package.Name}}\n" ++ (
  g!"\n" ++ (
  g!"{{if (not .Options.HeaderVars.DisableGoGenerate)}}\n" ++ (
  g!"//{{\"go:generate\"}} gowrap gen -p {{.SourcePackage.PkgPath}} -i {{.Options.InterfaceName}} -t {{.Options.HeaderVars.Template}} -o {{.Options.HeaderVars.OutputFileName}}{{.Options.HeaderVars.VarsArgs}} -l \"{{.Options.LocalPrefix}}\"\n" ++ (
  g!"{{end}}\n" ++ (
  g!"import(\n" ++ (
  g!"{{range $import := .Options.Imports}}{{$import}}\n" ++ (
  g!"\t{{end}}\n" ++ (
  g!")\n"))))))))))))

end Gowrap.Text
