import Verif.Model.GoStr
/-!
# Files generated by gowrap

The files of /repo/templates_tests that gowrap generated, line by line and unchanged.  They are used in `Tests/Golden` only.
-/

namespace Gowrap.Golden

/-- templates_tests/interface_with_circuitbreaker.go:1-76 -/
def circuitbreaker : Str :=
  g!"// Code generated by gowrap. DO NOT EDIT.\n" ++ (
  g!"// template: ../templates/circuitbreaker\n" ++ (
  g!"// gowrap: http://github.com/hexdigest/gowrap\n" ++ (
  g!"\n" ++ (
  g!"package templatestests\n" ++ (
  g!"\n" ++ (
  g!"//go:generate gowrap gen -p github.com/hexdigest/gowrap/templates_tests -i TestInterface -t ../templates/circuitbreaker -o interface_with_circuitbreaker.go -l \"\"\n" ++ (
  g!"\n" ++ (
  g!"import (\n" ++ (
  g!"\t\"context\"\n" ++ (
  g!"\t\"errors\"\n" ++ (
  g!"\t\"sync\"\n" ++ (
  g!"\t\"time\"\n" ++ (
  g!")\n" ++ (
  g!"\n" ++ (
  g!"// TestInterfaceWithCircuitBreaker implements TestInterface instrumented with circuit breaker\n" ++ (
  g!"type TestInterfaceWithCircuitBreaker struct {\n" ++ (
  g!"\tTestInterface\n" ++ (
  g!"\n" ++ (
  g!"\t_lock                 sync.RWMutex\n" ++ (
  g!"\t_maxConsecutiveErrors int\n" ++ (
  g!"\t_consecutiveErrors    int\n" ++ (
  g!"\t_openInterval         time.Duration\n" ++ (
  g!"\t_closesAt             *time.Time\n" ++ (
  g!"\t_ignoreErrors         []error\n" ++ (
  g!"}\n" ++ (
  g!"\n" ++ (
  g!"// NewTestInterfaceWithCircuitBreaker breakes a circuit after consecutiveErrors of errors and closes the circuit again after openInterval of time.\n" ++ (
  g!"// If, after openInterval, the first method call results in error we open and close again.\n" ++ (
  g!"func NewTestInterfaceWithCircuitBreaker(base TestInterface, consecutiveErrors int, openInterval time.Duration, ignoreErrors ...error) *TestInterfaceWithCircuitBreaker {\n" ++ (
  g!"\treturn &TestInterfaceWithCircuitBreaker{\n" ++ (
  g!"\t\tTestInterface:         base,\n" ++ (
  g!"\t\t_maxConsecutiveErrors: consecutiveErrors,\n" ++ (
  g!"\t\t_openInterval:         openInterval,\n" ++ (
  g!"\t\t_ignoreErrors:         ignoreErrors,\n" ++ (
  g!"\t}\n" ++ (
  g!"}\n" ++ (
  g!"\n" ++ (
  g!"// F implements TestInterface\n" ++ (
  g!"func (_d *TestInterfaceWithCircuitBreaker) F(ctx context.Context, a1 string, a2 ...string) (result1 string, result2 string, err error) {\n" ++ (
  g!"\t_d._lock.RLock()\n" ++ (
  g!"\n" ++ (
  g!"\tif _d._closesAt != nil && _d._closesAt.After(time.Now()) {\n" ++ (
  g!"\t\t_d._lock.RUnlock()\n" ++ (
  g!"\t\terr = errors.New(\"TestInterfaceWithCircuitBreaker: circuit is open\")\n" ++ (
  g!"\t\treturn\n" ++ (
  g!"\t}\n" ++ (
  g!"\t_d._lock.RUnlock()\n" ++ (
  g!"\n" ++ (
  g!"\tresult1, result2, err = _d.TestInterface.F(ctx, a1, a2...)\n" ++ (
  g!"\t_d._lock.Lock()\n" ++ (
  g!"\tdefer _d._lock.Unlock()\n" ++ (
  g!"\n" ++ (
  g!"\tif err == nil {\n" ++ (
  g!"\t\t_d._consecutiveErrors = 0\n" ++ (
  g!"\t\t_d._closesAt = nil\n" ++ (
  g!"\t\treturn\n" ++ (
  g!"\t}\n" ++ (
  g!"\n" ++ (
  g!"\tfor _, _e := range _d._ignoreErrors {\n" ++ (
  g!"\t\tif errors.Is(err, _e) {\n" ++ (
  g!"\t\t\t_d._consecutiveErrors = 0\n" ++ (
  g!"\t\t\t_d._closesAt = nil\n" ++ (
  g!"\t\t\treturn\n" ++ (
  g!"\t\t}\n" ++ (
  g!"\t}\n" ++ (
  g!"\n" ++ (
  g!"\t_d._consecutiveErrors++\n" ++ (
  g!"\n" ++ (
  g!"\tif _d._consecutiveErrors >= _d._maxConsecutiveErrors {\n" ++ (
  g!"\t\tclosesAt := time.Now().Add(_d._openInterval)\n" ++ (
  g!"\t\t_d._closesAt = &closesAt\n" ++ (
  g!"\t}\n" ++ (
  g!"\n" ++ (
  g!"\treturn\n" ++ (
  g!"}\n")))))))))))))))))))))))))))))))))))))))))))))))))))))))))))))))))))))))))))

/-- templates_tests/interface_with_elasticapm.go:1-90 -/
def elasticapm : Str :=
  g!"// Code generated by gowrap. DO NOT EDIT.\n" ++ (
  g!"// template: ../templates/elasticapm\n" ++ (
  g!"// gowrap: http://github.com/hexdigest/gowrap\n" ++ (
  g!"\n" ++ (
  g!"package templatestests\n" ++ (
  g!"\n" ++ (
  g!"//go:generate gowrap gen -p github.com/hexdigest/gowrap/templates_tests -i TestInterface -t ../templates/elasticapm -o interface_with_elasticapm.go -l \"\"\n" ++ (
  g!"\n" ++ (
  g!"import (\n" ++ (
  g!"\t\"context\"\n" ++ (
  g!"\n" ++ (
  g!"\t\"go.elastic.co/apm/v2\"\n" ++ (
  g!")\n" ++ (
  g!"\n" ++ (
  g!"// TestInterfaceAPMTracing implements TestInterface interface with all methods wrapped\n" ++ (
  g!"// with go.elastic.co/apm/v2\n" ++ (
  g!"type TestInterfaceAPMTracing struct {\n" ++ (
  g!"\tbase         TestInterface\n" ++ (
  g!"\tstartSpan    func(ctx context.Context, name, spanType string) (*apm.Span, context.Context)\n" ++ (
  g!"\tendSpan      func(span *apm.Span)\n" ++ (
  g!"\tsetLabel     func(span *apm.Span, key string, value interface{})\n" ++ (
  g!"\tcaptureError func(ctx context.Context, err error)\n" ++ (
  g!"\tspanType     string\n" ++ (
  g!"}\n" ++ (
  g!"\n" ++ (
  g!"type TestInterfaceAPMTracingOption func(v *TestInterfaceAPMTracing)\n" ++ (
  g!"\n" ++ (
  g!"func TestInterfaceAPMTracingWithUsingSetLabel() TestInterfaceAPMTracingOption {\n" ++ (
  g!"\treturn func(v *TestInterfaceAPMTracing) {\n" ++ (
  g!"\t\tv.setLabel = func(span *apm.Span, key string, value interface{}) {\n" ++ (
  g!"\t\t\tspan.SpanData.Context.SetLabel(key, value)\n" ++ (
  g!"\t\t}\n" ++ (
  g!"\t}\n" ++ (
  g!"}\n" ++ (
  g!"\n" ++ (
  g!"func TestInterfaceAPMTracingWithSpanType(spanType string) TestInterfaceAPMTracingOption {\n" ++ (
  g!"\treturn func(v *TestInterfaceAPMTracing) {\n" ++ (
  g!"\t\tv.spanType = spanType\n" ++ (
  g!"\t}\n" ++ (
  g!"}\n" ++ (
  g!"\n" ++ (
  g!"// NewTestInterfaceAPMTracing returns an instance of the TestInterface decorated with go.elastic.co/apm/v2\n" ++ (
  g!"func NewTestInterfaceAPMTracing(base TestInterface, opts ...TestInterfaceAPMTracingOption) TestInterfaceAPMTracing {\n" ++ (
  g!"\tr := TestInterfaceAPMTracing{\n" ++ (
  g!"\t\tbase:      base,\n" ++ (
  g!"\t\tstartSpan: apm.StartSpan,\n" ++ (
  g!"\t\tendSpan: func(span *apm.Span) {\n" ++ (
  g!"\t\t\tspan.End()\n" ++ (
  g!"\t\t},\n" ++ (
  g!"\t\tsetLabel: func(span *apm.Span, key string, value interface{}) {\n" ++ (
  g!"\t\t},\n" ++ (
  g!"\t\tcaptureError: func(ctx context.Context, err error) {\n" ++ (
  g!"\t\t\tapm.CaptureError(ctx, err).Send()\n" ++ (
  g!"\t\t},\n" ++ (
  g!"\t\tspanType: \"testinterface\",\n" ++ (
  g!"\t}\n" ++ (
  g!"\n" ++ (
  g!"\tfor _, fn := range opts {\n" ++ (
  g!"\t\tfn(&r)\n" ++ (
  g!"\t}\n" ++ (
  g!"\treturn r\n" ++ (
  g!"}\n" ++ (
  g!"\n" ++ (
  g!"// ContextNoError implements TestInterface\n" ++ (
  g!"func (_d TestInterfaceAPMTracing) ContextNoError(ctx context.Context, a1 string, a2 string) {\n" ++ (
  g!"\tspan, ctx := _d.startSpan(ctx, \"testinterface.ContextNoError\", _d.spanType)\n" ++ (
  g!"\tdefer func() {\n" ++ (
  g!"\t\t_d.endSpan(span)\n" ++ (
  g!"\t}()\n" ++ (
  g!"\t_d.setLabel(span, \"a1\", a1)\n" ++ (
  g!"\t_d.setLabel(span, \"a2\", a2)\n" ++ (
  g!"\n" ++ (
  g!"\t_d.base.ContextNoError(ctx, a1, a2)\n" ++ (
  g!"\treturn\n" ++ (
  g!"}\n" ++ (
  g!"\n" ++ (
  g!"// F implements TestInterface\n" ++ (
  g!"func (_d TestInterfaceAPMTracing) F(ctx context.Context, a1 string, a2 ...string) (result1 string, result2 string, err error) {\n" ++ (
  g!"\tspan, ctx := _d.startSpan(ctx, \"testinterface.F\", _d.spanType)\n" ++ (
  g!"\tdefer func() {\n" ++ (
  g!"\t\tif err != nil {\n" ++ (
  g!"\t\t\t_d.captureError(ctx, err)\n" ++ (
  g!"\t\t}\n" ++ (
  g!"\t\t_d.endSpan(span)\n" ++ (
  g!"\t}()\n" ++ (
  g!"\t_d.setLabel(span, \"a1\", a1)\n" ++ (
  g!"\t_d.setLabel(span, \"a2\", a2)\n" ++ (
  g!"\n" ++ (
  g!"\treturn _d.base.F(ctx, a1, a2...)\n" ++ (
  g!"}\n")))))))))))))))))))))))))))))))))))))))))))))))))))))))))))))))))))))))))))))))))))))))))

/-- templates_tests/interface_with_fallback.go:1-241 -/
def fallback : Str :=
  g!"// Code generated by gowrap. DO NOT EDIT.\n" ++ (
  g!"// template: ../templates/fallback\n" ++ (
  g!"// gowrap: http://github.com/hexdigest/gowrap\n" ++ (
  g!"\n" ++ (
  g!"package templatestests\n" ++ (
  g!"\n" ++ (
  g!"//go:generate gowrap gen -p github.com/hexdigest/gowrap/templates_tests -i TestInterface -t ../templates/fallback -o interface_with_fallback.go -l \"\"\n" ++ (
  g!"\n" ++ (
  g!"import (\n" ++ (
  g!"\t\"context\"\n" ++ (
  g!"\t\"fmt\"\n" ++ (
  g!"\t\"strings\"\n" ++ (
  g!"\t\"time\"\n" ++ (
  g!")\n" ++ (
  g!"\n" ++ (
  g!"// TestInterfaceWithFallback implements TestInterface interface wrapped with Prometheus metrics\n" ++ (
  g!"type TestInterfaceWithFallback struct {\n" ++ (
  g!"\timplementations []TestInterface\n" ++ (
  g!"\tinterval        time.Duration\n" ++ (
  g!"}\n" ++ (
  g!"\n" ++ (
  g!"// NewTestInterfaceWithFallback takes several implementations of the TestInterface and returns an instance of TestInterface\n" ++ (
  g!"// which calls all implementations concurrently with given interval and returns first non-error response.\n" ++ (
  g!"func NewTestInterfaceWithFallback(interval time.Duration, impls ...TestInterface) TestInterfaceWithFallback {\n" ++ (
  g!"\treturn TestInterfaceWithFallback{implementations: impls, interval: interval}\n" ++ (
  g!"}\n" ++ (
  g!"\n" ++ (
  g!"// Channels implements TestInterface\n" ++ (
  g!"func (_d TestInterfaceWithFallback) Channels(chA chan bool, chB chan<- bool, chanC <-chan bool) {\n" ++ (
  g!"\ttype _resultStruct struct {\n" ++ (
  g!"\t}\n" ++ (
  g!"\tvar _ch = make(chan _resultStruct, 0)\n" ++ (
  g!"\tvar _next = make(chan struct{}, len(_d.implementations))\n" ++ (
  g!"\n" ++ (
  g!"\tvar _ticker = time.NewTicker(_d.interval)\n" ++ (
  g!"\tdefer _ticker.Stop()\n" ++ (
  g!"\n" ++ (
  g!"\tgo func() {\n" ++ (
  g!"\t\tfor _i := 0; _i < len(_d.implementations); _i++ {\n" ++ (
  g!"\t\t\tgo func(_impl TestInterface) {\n" ++ (
  g!"\t\t\t\t_impl.Channels(chA, chB, chanC)\n" ++ (
  g!"\n" ++ (
  g!"\t\t\t\tselect {\n" ++ (
  g!"\t\t\t\tcase _ch <- _resultStruct{}:\n" ++ (
  g!"\t\t\t\tdefault:\n" ++ (
  g!"\t\t\t\t}\n" ++ (
  g!"\n" ++ (
  g!"\t\t\t}(_d.implementations[_i])\n" ++ (
  g!"\n" ++ (
  g!"\t\t\tif _i < len(_d.implementations)-1 {\n" ++ (
  g!"\t\t\t\tselect {\n" ++ (
  g!"\t\t\t\tcase <-_next:\n" ++ (
  g!"\t\t\t\tcase <-_ticker.C:\n" ++ (
  g!"\t\t\t\t}\n" ++ (
  g!"\t\t\t}\n" ++ (
  g!"\t\t}\n" ++ (
  g!"\t}()\n" ++ (
  g!"\n" ++ (
  g!"\t<-_ch\n" ++ (
  g!"\treturn\n" ++ (
  g!"\n" ++ (
  g!"}\n" ++ (
  g!"\n" ++ (
  g!"// ContextNoError implements TestInterface\n" ++ (
  g!"func (_d TestInterfaceWithFallback) ContextNoError(ctx context.Context, a1 string, a2 string) {\n" ++ (
  g!"\ttype _resultStruct struct {\n" ++ (
  g!"\t}\n" ++ (
  g!"\tvar _ch = make(chan _resultStruct, 0)\n" ++ (
  g!"\tvar _next = make(chan struct{}, len(_d.implementations))\n" ++ (
  g!"\n" ++ (
  g!"\tvar _ticker = time.NewTicker(_d.interval)\n" ++ (
  g!"\tdefer _ticker.Stop()\n" ++ (
  g!"\tctx, _cancelFunc := context.WithCancel(ctx)\n" ++ (
  g!"\tdefer _cancelFunc()\n" ++ (
  g!"\n" ++ (
  g!"\tgo func() {\n" ++ (
  g!"\t\tfor _i := 0; _i < len(_d.implementations); _i++ {\n" ++ (
  g!"\t\t\tgo func(_impl TestInterface) {\n" ++ (
  g!"\t\t\t\t_impl.ContextNoError(ctx, a1, a2)\n" ++ (
  g!"\n" ++ (
  g!"\t\t\t\tselect {\n" ++ (
  g!"\t\t\t\tcase _ch <- _resultStruct{}:\n" ++ (
  g!"\t\t\t\tcase <-ctx.Done():\n" ++ (
  g!"\t\t\t\t}\n" ++ (
  g!"\n" ++ (
  g!"\t\t\t}(_d.implementations[_i])\n" ++ (
  g!"\n" ++ (
  g!"\t\t\tif _i < len(_d.implementations)-1 {\n" ++ (
  g!"\t\t\t\tselect {\n" ++ (
  g!"\t\t\t\tcase <-_next:\n" ++ (
  g!"\t\t\t\tcase <-_ticker.C:\n" ++ (
  g!"\t\t\t\t}\n" ++ (
  g!"\t\t\t}\n" ++ (
  g!"\t\t}\n" ++ (
  g!"\t}()\n" ++ (
  g!"\n" ++ (
  g!"\tfor {\n" ++ (
  g!"\t\tselect {\n" ++ (
  g!"\t\tcase <-_ch:\n" ++ (
  g!"\t\t\treturn\n" ++ (
  g!"\t\tcase <-ctx.Done():\n" ++ (
  g!"\n" ++ (
  g!"\t\t\treturn\n" ++ (
  g!"\t\t}\n" ++ (
  g!"\t}\n" ++ (
  g!"\n" ++ (
  g!"}\n" ++ (
  g!"\n" ++ (
  g!"// F implements TestInterface\n" ++ (
  g!"func (_d TestInterfaceWithFallback) F(ctx context.Context, a1 string, a2 ...string) (result1 string, result2 string, err error) {\n" ++ (
  g!"\ttype _resultStruct struct {\n" ++ (
  g!"\t\tresult1 string\n" ++ (
  g!"\t\tresult2 string\n" ++ (
  g!"\t\terr     error\n" ++ (
  g!"\t}\n" ++ (
  g!"\tvar _ch = make(chan _resultStruct, 0)\n" ++ (
  g!"\tvar _next = make(chan struct{}, len(_d.implementations))\n" ++ (
  g!"\tvar _errorsList []string\n" ++ (
  g!"\tvar _ticker = time.NewTicker(_d.interval)\n" ++ (
  g!"\tdefer _ticker.Stop()\n" ++ (
  g!"\tctx, _cancelFunc := context.WithCancel(ctx)\n" ++ (
  g!"\tdefer _cancelFunc()\n" ++ (
  g!"\n" ++ (
  g!"\tgo func() {\n" ++ (
  g!"\t\tfor _i := 0; _i < len(_d.implementations); _i++ {\n" ++ (
  g!"\t\t\tgo func(_impl TestInterface) {\n" ++ (
  g!"\t\t\t\tresult1, result2, err := _impl.F(ctx, a1, a2...)\n" ++ (
  g!"\t\t\t\tif err != nil {\n" ++ (
  g!"\t\t\t\t\terr = fmt.Errorf(\"%T: %v\", _impl, err)\n" ++ (
  g!"\t\t\t\t}\n" ++ (
  g!"\n" ++ (
  g!"\t\t\t\tselect {\n" ++ (
  g!"\t\t\t\tcase _ch <- _resultStruct{result1, result2, err}:\n" ++ (
  g!"\t\t\t\tcase <-ctx.Done():\n" ++ (
  g!"\t\t\t\t}\n" ++ (
  g!"\n" ++ (
  g!"\t\t\t}(_d.implementations[_i])\n" ++ (
  g!"\n" ++ (
  g!"\t\t\tif _i < len(_d.implementations)-1 {\n" ++ (
  g!"\t\t\t\tselect {\n" ++ (
  g!"\t\t\t\tcase <-_next:\n" ++ (
  g!"\t\t\t\tcase <-_ticker.C:\n" ++ (
  g!"\t\t\t\t}\n" ++ (
  g!"\t\t\t}\n" ++ (
  g!"\t\t}\n" ++ (
  g!"\t}()\n" ++ (
  g!"\n" ++ (
  g!"\tfor {\n" ++ (
  g!"\t\tselect {\n" ++ (
  g!"\t\tcase _res := <-_ch:\n" ++ (
  g!"\t\t\tif _res.err == nil {\n" ++ (
  g!"\t\t\t\treturn _res.result1, _res.result2, _res.err\n" ++ (
  g!"\t\t\t}\n" ++ (
  g!"\t\t\t_next <- struct{}{}\n" ++ (
  g!"\t\t\t_errorsList = append(_errorsList, _res.err.Error())\n" ++ (
  g!"\t\t\tif len(_errorsList) == len(_d.implementations) {\n" ++ (
  g!"\t\t\t\terr = fmt.Errorf(strings.Join(_errorsList, \";\"))\n" ++ (
  g!"\t\t\t\treturn\n" ++ (
  g!"\t\t\t}\n" ++ (
  g!"\t\tcase <-ctx.Done():\n" ++ (
  g!"\n" ++ (
  g!"\t\t\terr = fmt.Errorf(\"%w: %s\", ctx.Err(), strings.Join(_errorsList, \";\"))\n" ++ (
  g!"\n" ++ (
  g!"\t\t\treturn\n" ++ (
  g!"\t\t}\n" ++ (
  g!"\t}\n" ++ (
  g!"\n" ++ (
  g!"}\n" ++ (
  g!"\n" ++ (
  g!"// NoError implements TestInterface\n" ++ (
  g!"func (_d TestInterfaceWithFallback) NoError(s1 string) (s2 string) {\n" ++ (
  g!"\ttype _resultStruct struct {\n" ++ (
  g!"\t\ts2 string\n" ++ (
  g!"\t}\n" ++ (
  g!"\tvar _ch = make(chan _resultStruct, 0)\n" ++ (
  g!"\tvar _next = make(chan struct{}, len(_d.implementations))\n" ++ (
  g!"\n" ++ (
  g!"\tvar _ticker = time.NewTicker(_d.interval)\n" ++ (
  g!"\tdefer _ticker.Stop()\n" ++ (
  g!"\n" ++ (
  g!"\tgo func() {\n" ++ (
  g!"\t\tfor _i := 0; _i < len(_d.implementations); _i++ {\n" ++ (
  g!"\t\t\tgo func(_impl TestInterface) {\n" ++ (
  g!"\t\t\t\ts2 := _impl.NoError(s1)\n" ++ (
  g!"\n" ++ (
  g!"\t\t\t\tselect {\n" ++ (
  g!"\t\t\t\tcase _ch <- _resultStruct{s2}:\n" ++ (
  g!"\t\t\t\tdefault:\n" ++ (
  g!"\t\t\t\t}\n" ++ (
  g!"\n" ++ (
  g!"\t\t\t}(_d.implementations[_i])\n" ++ (
  g!"\n" ++ (
  g!"\t\t\tif _i < len(_d.implementations)-1 {\n" ++ (
  g!"\t\t\t\tselect {\n" ++ (
  g!"\t\t\t\tcase <-_next:\n" ++ (
  g!"\t\t\t\tcase <-_ticker.C:\n" ++ (
  g!"\t\t\t\t}\n" ++ (
  g!"\t\t\t}\n" ++ (
  g!"\t\t}\n" ++ (
  g!"\t}()\n" ++ (
  g!"\n" ++ (
  g!"\t_res := <-_ch\n" ++ (
  g!"\treturn _res.s2\n" ++ (
  g!"\n" ++ (
  g!"}\n" ++ (
  g!"\n" ++ (
  g!"// NoParamsOrResults implements TestInterface\n" ++ (
  g!"func (_d TestInterfaceWithFallback) NoParamsOrResults() {\n" ++ (
  g!"\ttype _resultStruct struct {\n" ++ (
  g!"\t}\n" ++ (
  g!"\tvar _ch = make(chan _resultStruct, 0)\n" ++ (
  g!"\tvar _next = make(chan struct{}, len(_d.implementations))\n" ++ (
  g!"\n" ++ (
  g!"\tvar _ticker = time.NewTicker(_d.interval)\n" ++ (
  g!"\tdefer _ticker.Stop()\n" ++ (
  g!"\n" ++ (
  g!"\tgo func() {\n" ++ (
  g!"\t\tfor _i := 0; _i < len(_d.implementations); _i++ {\n" ++ (
  g!"\t\t\tgo func(_impl TestInterface) {\n" ++ (
  g!"\t\t\t\t_impl.NoParamsOrResults()\n" ++ (
  g!"\n" ++ (
  g!"\t\t\t\tselect {\n" ++ (
  g!"\t\t\t\tcase _ch <- _resultStruct{}:\n" ++ (
  g!"\t\t\t\tdefault:\n" ++ (
  g!"\t\t\t\t}\n" ++ (
  g!"\n" ++ (
  g!"\t\t\t}(_d.implementations[_i])\n" ++ (
  g!"\n" ++ (
  g!"\t\t\tif _i < len(_d.implementations)-1 {\n" ++ (
  g!"\t\t\t\tselect {\n" ++ (
  g!"\t\t\t\tcase <-_next:\n" ++ (
  g!"\t\t\t\tcase <-_ticker.C:\n" ++ (
  g!"\t\t\t\t}\n" ++ (
  g!"\t\t\t}\n" ++ (
  g!"\t\t}\n" ++ (
  g!"\t}()\n" ++ (
  g!"\n" ++ (
  g!"\t<-_ch\n" ++ (
  g!"\treturn\n" ++ (
  g!"\n" ++ (
  g!"}\n"))))))))))))))))))))))))))))))))))))))))))))))))))))))))))))))))))))))))))))))))))))))))))))))))))))))))))))))))))))))))))))))))))))))))))))))))))))))))))))))))))))))))))))))))))))))))))))))))))))))))))))))))))))))))))))))))))))))))))))))))

/-- templates_tests/interface_with_grpc_validation.go:1-38 -/
def grpcValidation : Str :=
  g!"// Code generated by gowrap. DO NOT EDIT.\n" ++ (
  g!"// template: ../templates/grpc_validate\n" ++ (
  g!"// gowrap: http://github.com/hexdigest/gowrap\n" ++ (
  g!"\n" ++ (
  g!"package templatestests\n" ++ (
  g!"\n" ++ (
  g!"//go:generate gowrap gen -p github.com/hexdigest/gowrap/templates_tests -i InterfaceWithValidtableArg -t ../templates/grpc_validate -o interface_with_grpc_validation.go -l \"\"\n" ++ (
  g!"\n" ++ (
  g!"import (\n" ++ (
  g!"\t\"context\"\n" ++ (
  g!"\n" ++ (
  g!"\tgrpc_codes \"google.golang.org/grpc/codes\"\n" ++ (
  g!"\tgrpc_status \"google.golang.org/grpc/status\"\n" ++ (
  g!")\n" ++ (
  g!"\n" ++ (
  g!"// InterfaceWithValidtableArgWithGRPCValidation implements InterfaceWithValidtableArg interface instrumented with GRPC request validation\n" ++ (
  g!"type InterfaceWithValidtableArgWithGRPCValidation struct {\n" ++ (
  g!"\tInterfaceWithValidtableArg\n" ++ (
  g!"}\n" ++ (
  g!"\n" ++ (
  g!"// NewInterfaceWithValidtableArgWithGRPCValidation returns InterfaceWithValidtableArgWithGRPCValidation\n" ++ (
  g!"func NewInterfaceWithValidtableArgWithGRPCValidation(base InterfaceWithValidtableArg) InterfaceWithValidtableArgWithGRPCValidation {\n" ++ (
  g!"\treturn InterfaceWithValidtableArgWithGRPCValidation{\n" ++ (
  g!"\t\tInterfaceWithValidtableArg: base,\n" ++ (
  g!"\t}\n" ++ (
  g!"}\n" ++ (
  g!"\n" ++ (
  g!"// Method implements InterfaceWithValidtableArg\n" ++ (
  g!"func (_d InterfaceWithValidtableArgWithGRPCValidation) Method(ctx context.Context, r *ValidatableRequest) (err error) {\n" ++ (
  g!"\tif _v, _ok := interface{}(r).(interface{ Validate() error }); _ok {\n" ++ (
  g!"\t\tif err = _v.Validate(); err != nil {\n" ++ (
  g!"\t\t\terr = grpc_status.Error(grpc_codes.InvalidArgument, err.Error())\n" ++ (
  g!"\t\t\treturn\n" ++ (
  g!"\t\t}\n" ++ (
  g!"\t}\n" ++ (
  g!"\n" ++ (
  g!"\treturn _d.InterfaceWithValidtableArg.Method(ctx, r)\n" ++ (
  g!"}\n")))))))))))))))))))))))))))))))))))))

/-- templates_tests/interface_with_log.go:1-86 -/
def log : Str :=
  g!"// Code generated by gowrap. DO NOT EDIT.\n" ++ (
  g!"// template: ../templates/log\n" ++ (
  g!"// gowrap: http://github.com/hexdigest/gowrap\n" ++ (
  g!"\n" ++ (
  g!"package templatestests\n" ++ (
  g!"\n" ++ (
  g!"//go:generate gowrap gen -p github.com/hexdigest/gowrap/templates_tests -i TestInterface -t ../templates/log -o interface_with_log.go -v DecoratorName=TestInterfaceWithLogger -l \"\"\n" ++ (
  g!"\n" ++ (
  g!"import (\n" ++ (
  g!"\t\"context\"\n" ++ (
  g!"\t\"io\"\n" ++ (
  g!"\t\"log\"\n" ++ (
  g!")\n" ++ (
  g!"\n" ++ (
  g!"// TestInterfaceWithLogger implements TestInterface that is instrumented with logging\n" ++ (
  g!"type TestInterfaceWithLogger struct {\n" ++ (
  g!"\t_stdlog, _errlog *log.Logger\n" ++ (
  g!"\t_base            TestInterface\n" ++ (
  g!"}\n" ++ (
  g!"\n" ++ (
  g!"// NewTestInterfaceWithLogger instruments an implementation of the TestInterface with simple logging\n" ++ (
  g!"func NewTestInterfaceWithLogger(base TestInterface, stdout, stderr io.Writer) TestInterfaceWithLogger {\n" ++ (
  g!"\treturn TestInterfaceWithLogger{\n" ++ (
  g!"\t\t_base:   base,\n" ++ (
  g!"\t\t_stdlog: log.New(stdout, \"\", log.LstdFlags),\n" ++ (
  g!"\t\t_errlog: log.New(stderr, \"\", log.LstdFlags),\n" ++ (
  g!"\t}\n" ++ (
  g!"}\n" ++ (
  g!"\n" ++ (
  g!"// Channels implements TestInterface\n" ++ (
  g!"func (_d TestInterfaceWithLogger) Channels(chA chan bool, chB chan<- bool, chanC <-chan bool) {\n" ++ (
  g!"\t_params := []interface{}{\"TestInterfaceWithLogger: calling Channels with params:\", chA, chB, chanC}\n" ++ (
  g!"\t_d._stdlog.Println(_params...)\n" ++ (
  g!"\tdefer func() {\n" ++ (
  g!"\t\t_d._stdlog.Println(\"TestInterfaceWithLogger: Channels finished\")\n" ++ (
  g!"\t}()\n" ++ (
  g!"\t_d._base.Channels(chA, chB, chanC)\n" ++ (
  g!"\treturn\n" ++ (
  g!"}\n" ++ (
  g!"\n" ++ (
  g!"// ContextNoError implements TestInterface\n" ++ (
  g!"func (_d TestInterfaceWithLogger) ContextNoError(ctx context.Context, a1 string, a2 string) {\n" ++ (
  g!"\t_params := []interface{}{\"TestInterfaceWithLogger: calling ContextNoError with params:\", ctx, a1, a2}\n" ++ (
  g!"\t_d._stdlog.Println(_params...)\n" ++ (
  g!"\tdefer func() {\n" ++ (
  g!"\t\t_d._stdlog.Println(\"TestInterfaceWithLogger: ContextNoError finished\")\n" ++ (
  g!"\t}()\n" ++ (
  g!"\t_d._base.ContextNoError(ctx, a1, a2)\n" ++ (
  g!"\treturn\n" ++ (
  g!"}\n" ++ (
  g!"\n" ++ (
  g!"// F implements TestInterface\n" ++ (
  g!"func (_d TestInterfaceWithLogger) F(ctx context.Context, a1 string, a2 ...string) (result1 string, result2 string, err error) {\n" ++ (
  g!"\t_params := []interface{}{\"TestInterfaceWithLogger: calling F with params:\", ctx, a1, a2}\n" ++ (
  g!"\t_d._stdlog.Println(_params...)\n" ++ (
  g!"\tdefer func() {\n" ++ (
  g!"\t\t_results := []interface{}{\"TestInterfaceWithLogger: F returned results:\", result1, result2, err}\n" ++ (
  g!"\t\tif err != nil {\n" ++ (
  g!"\t\t\t_d._errlog.Println(_results...)\n" ++ (
  g!"\t\t} else {\n" ++ (
  g!"\t\t\t_d._stdlog.Println(_results...)\n" ++ (
  g!"\t\t}\n" ++ (
  g!"\t}()\n" ++ (
  g!"\treturn _d._base.F(ctx, a1, a2...)\n" ++ (
  g!"}\n" ++ (
  g!"\n" ++ (
  g!"// NoError implements TestInterface\n" ++ (
  g!"func (_d TestInterfaceWithLogger) NoError(s1 string) (s2 string) {\n" ++ (
  g!"\t_params := []interface{}{\"TestInterfaceWithLogger: calling NoError with params:\", s1}\n" ++ (
  g!"\t_d._stdlog.Println(_params...)\n" ++ (
  g!"\tdefer func() {\n" ++ (
  g!"\t\t_results := []interface{}{\"TestInterfaceWithLogger: NoError returned results:\", s2}\n" ++ (
  g!"\t\t_d._stdlog.Println(_results...)\n" ++ (
  g!"\t}()\n" ++ (
  g!"\treturn _d._base.NoError(s1)\n" ++ (
  g!"}\n" ++ (
  g!"\n" ++ (
  g!"// NoParamsOrResults implements TestInterface\n" ++ (
  g!"func (_d TestInterfaceWithLogger) NoParamsOrResults() {\n" ++ (
  g!"\t_d._stdlog.Println(\"TestInterfaceWithLogger: calling NoParamsOrResults\")\n" ++ (
  g!"\tdefer func() {\n" ++ (
  g!"\t\t_d._stdlog.Println(\"TestInterfaceWithLogger: NoParamsOrResults finished\")\n" ++ (
  g!"\t}()\n" ++ (
  g!"\t_d._base.NoParamsOrResults()\n" ++ (
  g!"\treturn\n" ++ (
  g!"}\n")))))))))))))))))))))))))))))))))))))))))))))))))))))))))))))))))))))))))))))))))))))

/-- templates_tests/interface_with_logrus.go:1-96 -/
def logrus : Str :=
  g!"// Code generated by gowrap. DO NOT EDIT.\n" ++ (
  g!"// template: ../templates/logrus\n" ++ (
  g!"// gowrap: http://github.com/hexdigest/gowrap\n" ++ (
  g!"\n" ++ (
  g!"package templatestests\n" ++ (
  g!"\n" ++ (
  g!"//go:generate gowrap gen -p github.com/hexdigest/gowrap/templates_tests -i TestInterface -t ../templates/logrus -o interface_with_logrus.go -l \"\"\n" ++ (
  g!"\n" ++ (
  g!"import (\n" ++ (
  g!"\t\"context\"\n" ++ (
  g!"\n" ++ (
  g!"\t\"github.com/sirupsen/logrus\"\n" ++ (
  g!")\n" ++ (
  g!"\n" ++ (
  g!"// TestInterfaceWithLogrus implements TestInterface that is instrumented with logrus logger\n" ++ (
  g!"type TestInterfaceWithLogrus struct {\n" ++ (
  g!"\t_log  *logrus.Entry\n" ++ (
  g!"\t_base TestInterface\n" ++ (
  g!"}\n" ++ (
  g!"\n" ++ (
  g!"// NewTestInterfaceWithLogrus instruments an implementation of the TestInterface with simple logging\n" ++ (
  g!"func NewTestInterfaceWithLogrus(base TestInterface, log *logrus.Entry) TestInterfaceWithLogrus {\n" ++ (
  g!"\treturn TestInterfaceWithLogrus{\n" ++ (
  g!"\t\t_base: base,\n" ++ (
  g!"\t\t_log:  log,\n" ++ (
  g!"\t}\n" ++ (
  g!"}\n" ++ (
  g!"\n" ++ (
  g!"// Channels implements TestInterface\n" ++ (
  g!"func (_d TestInterfaceWithLogrus) Channels(chA chan bool, chB chan<- bool, chanC <-chan bool) {\n" ++ (
  g!"\t_d._log.WithFields(logrus.Fields(map[string]interface{}{\n" ++ (
  g!"\t\t\"chA\":   chA,\n" ++ (
  g!"\t\t\"chB\":   chB,\n" ++ (
  g!"\t\t\"chanC\": chanC})).Debug(\"TestInterfaceWithLogrus: calling Channels\")\n" ++ (
  g!"\tdefer func() {\n" ++ (
  g!"\t\t_d._log.Debug(\"TestInterfaceWithLogrus: Channels finished\")\n" ++ (
  g!"\t}()\n" ++ (
  g!"\t_d._base.Channels(chA, chB, chanC)\n" ++ (
  g!"\treturn\n" ++ (
  g!"}\n" ++ (
  g!"\n" ++ (
  g!"// ContextNoError implements TestInterface\n" ++ (
  g!"func (_d TestInterfaceWithLogrus) ContextNoError(ctx context.Context, a1 string, a2 string) {\n" ++ (
  g!"\t_d._log.WithFields(logrus.Fields(map[string]interface{}{\n" ++ (
  g!"\t\t\"ctx\": ctx,\n" ++ (
  g!"\t\t\"a1\":  a1,\n" ++ (
  g!"\t\t\"a2\":  a2})).Debug(\"TestInterfaceWithLogrus: calling ContextNoError\")\n" ++ (
  g!"\tdefer func() {\n" ++ (
  g!"\t\t_d._log.Debug(\"TestInterfaceWithLogrus: ContextNoError finished\")\n" ++ (
  g!"\t}()\n" ++ (
  g!"\t_d._base.ContextNoError(ctx, a1, a2)\n" ++ (
  g!"\treturn\n" ++ (
  g!"}\n" ++ (
  g!"\n" ++ (
  g!"// F implements TestInterface\n" ++ (
  g!"func (_d TestInterfaceWithLogrus) F(ctx context.Context, a1 string, a2 ...string) (result1 string, result2 string, err error) {\n" ++ (
  g!"\t_d._log.WithFields(logrus.Fields(map[string]interface{}{\n" ++ (
  g!"\t\t\"ctx\": ctx,\n" ++ (
  g!"\t\t\"a1\":  a1,\n" ++ (
  g!"\t\t\"a2\":  a2})).Debug(\"TestInterfaceWithLogrus: calling F\")\n" ++ (
  g!"\tdefer func() {\n" ++ (
  g!"\t\tif err != nil {\n" ++ (
  g!"\t\t\t_d._log.WithFields(logrus.Fields(map[string]interface{}{\n" ++ (
  g!"\t\t\t\t\"result1\": result1,\n" ++ (
  g!"\t\t\t\t\"result2\": result2,\n" ++ (
  g!"\t\t\t\t\"err\":     err})).Error(\"TestInterfaceWithLogrus: method F returned an error\")\n" ++ (
  g!"\t\t} else {\n" ++ (
  g!"\t\t\t_d._log.WithFields(logrus.Fields(map[string]interface{}{\n" ++ (
  g!"\t\t\t\t\"result1\": result1,\n" ++ (
  g!"\t\t\t\t\"result2\": result2,\n" ++ (
  g!"\t\t\t\t\"err\":     err})).Debug(\"TestInterfaceWithLogrus: method F finished\")\n" ++ (
  g!"\t\t}\n" ++ (
  g!"\t}()\n" ++ (
  g!"\treturn _d._base.F(ctx, a1, a2...)\n" ++ (
  g!"}\n" ++ (
  g!"\n" ++ (
  g!"// NoError implements TestInterface\n" ++ (
  g!"func (_d TestInterfaceWithLogrus) NoError(s1 string) (s2 string) {\n" ++ (
  g!"\t_d._log.WithFields(logrus.Fields(map[string]interface{}{\n" ++ (
  g!"\t\t\"s1\": s1})).Debug(\"TestInterfaceWithLogrus: calling NoError\")\n" ++ (
  g!"\tdefer func() {\n" ++ (
  g!"\t\t_d._log.WithFields(logrus.Fields(map[string]interface{}{\n" ++ (
  g!"\t\t\t\"s2\": s2})).Debug(\"TestInterfaceWithLogrus: method NoError finished\")\n" ++ (
  g!"\t}()\n" ++ (
  g!"\treturn _d._base.NoError(s1)\n" ++ (
  g!"}\n" ++ (
  g!"\n" ++ (
  g!"// NoParamsOrResults implements TestInterface\n" ++ (
  g!"func (_d TestInterfaceWithLogrus) NoParamsOrResults() {\n" ++ (
  g!"\t_d._log.Debug(\"TestInterfaceWithLogrus: calling NoParamsOrResults\")\n" ++ (
  g!"\tdefer func() {\n" ++ (
  g!"\t\t_d._log.Debug(\"TestInterfaceWithLogrus: NoParamsOrResults finished\")\n" ++ (
  g!"\t}()\n" ++ (
  g!"\t_d._base.NoParamsOrResults()\n" ++ (
  g!"\treturn\n" ++ (
  g!"}\n")))))))))))))))))))))))))))))))))))))))))))))))))))))))))))))))))))))))))))))))))))))))))))))))

/-- templates_tests/interface_with_opencensus.go:1-75 -/
def opencensus : Str :=
  g!"// Code generated by gowrap. DO NOT EDIT.\n" ++ (
  g!"// template: ../templates/opencensus\n" ++ (
  g!"// gowrap: http://github.com/hexdigest/gowrap\n" ++ (
  g!"\n" ++ (
  g!"package templatestests\n" ++ (
  g!"\n" ++ (
  g!"//go:generate gowrap gen -p github.com/hexdigest/gowrap/templates_tests -i TestInterface -t ../templates/opencensus -o interface_with_opencensus.go -v DecoratorName=TestInterfaceWithOpenCensus -l \"\"\n" ++ (
  g!"\n" ++ (
  g!"import (\n" ++ (
  g!"\t\"context\"\n" ++ (
  g!"\n" ++ (
  g!"\t\"go.opencensus.io/trace\"\n" ++ (
  g!")\n" ++ (
  g!"\n" ++ (
  g!"// TestInterfaceWithOpenCensus implements TestInterface interface instrumented with opentracing spans\n" ++ (
  g!"type TestInterfaceWithOpenCensus struct {\n" ++ (
  g!"\tTestInterface\n" ++ (
  g!"\t_instance      string\n" ++ (
  g!"\t_spanDecorator func(span *trace.Span, params, results map[string]interface{})\n" ++ (
  g!"}\n" ++ (
  g!"\n" ++ (
  g!"// NewTestInterfaceWithOpenCensus returns TestInterfaceWithOpenCensus\n" ++ (
  g!"func NewTestInterfaceWithOpenCensus(base TestInterface, instance string, spanDecorator ...func(span *trace.Span, params, results map[string]interface{})) TestInterfaceWithOpenCensus {\n" ++ (
  g!"\td := TestInterfaceWithOpenCensus{\n" ++ (
  g!"\t\tTestInterface: base,\n" ++ (
  g!"\t\t_instance:     instance,\n" ++ (
  g!"\t}\n" ++ (
  g!"\n" ++ (
  g!"\tif len(spanDecorator) > 0 && spanDecorator[0] != nil {\n" ++ (
  g!"\t\td._spanDecorator = spanDecorator[0]\n" ++ (
  g!"\t}\n" ++ (
  g!"\n" ++ (
  g!"\treturn d\n" ++ (
  g!"}\n" ++ (
  g!"\n" ++ (
  g!"// ContextNoError implements TestInterface\n" ++ (
  g!"func (_d TestInterfaceWithOpenCensus) ContextNoError(ctx context.Context, a1 string, a2 string) {\n" ++ (
  g!"\tctx, _span := trace.StartSpan(ctx, _d._instance+\".TestInterface.ContextNoError\")\n" ++ (
  g!"\tdefer func() {\n" ++ (
  g!"\t\tif _d._spanDecorator != nil {\n" ++ (
  g!"\t\t\t_d._spanDecorator(_span, map[string]interface{}{\n" ++ (
  g!"\t\t\t\t\"ctx\": ctx,\n" ++ (
  g!"\t\t\t\t\"a1\":  a1,\n" ++ (
  g!"\t\t\t\t\"a2\":  a2}, map[string]interface{}{})\n" ++ (
  g!"\t\t}\n" ++ (
  g!"\t\t_span.End()\n" ++ (
  g!"\t}()\n" ++ (
  g!"\t_d.TestInterface.ContextNoError(ctx, a1, a2)\n" ++ (
  g!"\treturn\n" ++ (
  g!"}\n" ++ (
  g!"\n" ++ (
  g!"// F implements TestInterface\n" ++ (
  g!"func (_d TestInterfaceWithOpenCensus) F(ctx context.Context, a1 string, a2 ...string) (result1 string, result2 string, err error) {\n" ++ (
  g!"\tctx, _span := trace.StartSpan(ctx, _d._instance+\".TestInterface.F\")\n" ++ (
  g!"\tdefer func() {\n" ++ (
  g!"\t\tif _d._spanDecorator != nil {\n" ++ (
  g!"\t\t\t_d._spanDecorator(_span, map[string]interface{}{\n" ++ (
  g!"\t\t\t\t\"ctx\": ctx,\n" ++ (
  g!"\t\t\t\t\"a1\":  a1,\n" ++ (
  g!"\t\t\t\t\"a2\":  a2}, map[string]interface{}{\n" ++ (
  g!"\t\t\t\t\"result1\": result1,\n" ++ (
  g!"\t\t\t\t\"result2\": result2,\n" ++ (
  g!"\t\t\t\t\"err\":     err})\n" ++ (
  g!"\t\t} else if err != nil {\n" ++ (
  g!"\t\t\t_span.AddAttributes(\n" ++ (
  g!"\t\t\t\ttrace.BoolAttribute(\"error\", true),\n" ++ (
  g!"\t\t\t\ttrace.StringAttribute(\"event\", \"error\"),\n" ++ (
  g!"\t\t\t\ttrace.StringAttribute(\"message\", err.Error()),\n" ++ (
  g!"\t\t\t)\n" ++ (
  g!"\t\t}\n" ++ (
  g!"\n" ++ (
  g!"\t\t_span.End()\n" ++ (
  g!"\t}()\n" ++ (
  g!"\treturn _d.TestInterface.F(ctx, a1, a2...)\n" ++ (
  g!"}\n"))))))))))))))))))))))))))))))))))))))))))))))))))))))))))))))))))))))))))

/-- templates_tests/interface_with_opentracing.go:1-77 -/
def opentracing : Str :=
  g!"// Code generated by gowrap. DO NOT EDIT.\n" ++ (
  g!"// template: ../templates/opentracing\n" ++ (
  g!"// gowrap: http://github.com/hexdigest/gowrap\n" ++ (
  g!"\n" ++ (
  g!"package templatestests\n" ++ (
  g!"\n" ++ (
  g!"//go:generate gowrap gen -p github.com/hexdigest/gowrap/templates_tests -i TestInterface -t ../templates/opentracing -o interface_with_opentracing.go -l \"\"\n" ++ (
  g!"\n" ++ (
  g!"import (\n" ++ (
  g!"\t\"context\"\n" ++ (
  g!"\n" ++ (
  g!"\topentracing \"github.com/opentracing/opentracing-go\"\n" ++ (
  g!"\t_ext \"github.com/opentracing/opentracing-go/ext\"\n" ++ (
  g!"\t_log \"github.com/opentracing/opentracing-go/log\"\n" ++ (
  g!")\n" ++ (
  g!"\n" ++ (
  g!"// TestInterfaceWithTracing implements TestInterface interface instrumented with opentracing spans\n" ++ (
  g!"type TestInterfaceWithTracing struct {\n" ++ (
  g!"\tTestInterface\n" ++ (
  g!"\t_instance      string\n" ++ (
  g!"\t_spanDecorator func(span opentracing.Span, params, results map[string]interface{})\n" ++ (
  g!"}\n" ++ (
  g!"\n" ++ (
  g!"// NewTestInterfaceWithTracing returns TestInterfaceWithTracing\n" ++ (
  g!"func NewTestInterfaceWithTracing(base TestInterface, instance string, spanDecorator ...func(span opentracing.Span, params, results map[string]interface{})) TestInterfaceWithTracing {\n" ++ (
  g!"\td := TestInterfaceWithTracing{\n" ++ (
  g!"\t\tTestInterface: base,\n" ++ (
  g!"\t\t_instance:     instance,\n" ++ (
  g!"\t}\n" ++ (
  g!"\n" ++ (
  g!"\tif len(spanDecorator) > 0 && spanDecorator[0] != nil {\n" ++ (
  g!"\t\td._spanDecorator = spanDecorator[0]\n" ++ (
  g!"\t}\n" ++ (
  g!"\n" ++ (
  g!"\treturn d\n" ++ (
  g!"}\n" ++ (
  g!"\n" ++ (
  g!"// ContextNoError implements TestInterface\n" ++ (
  g!"func (_d TestInterfaceWithTracing) ContextNoError(ctx context.Context, a1 string, a2 string) {\n" ++ (
  g!"\t_span, ctx := opentracing.StartSpanFromContext(ctx, _d._instance+\".TestInterface.ContextNoError\")\n" ++ (
  g!"\tdefer func() {\n" ++ (
  g!"\t\tif _d._spanDecorator != nil {\n" ++ (
  g!"\t\t\t_d._spanDecorator(_span, map[string]interface{}{\n" ++ (
  g!"\t\t\t\t\"ctx\": ctx,\n" ++ (
  g!"\t\t\t\t\"a1\":  a1,\n" ++ (
  g!"\t\t\t\t\"a2\":  a2}, map[string]interface{}{})\n" ++ (
  g!"\t\t}\n" ++ (
  g!"\t\t_span.Finish()\n" ++ (
  g!"\t}()\n" ++ (
  g!"\t_d.TestInterface.ContextNoError(ctx, a1, a2)\n" ++ (
  g!"\treturn\n" ++ (
  g!"}\n" ++ (
  g!"\n" ++ (
  g!"// F implements TestInterface\n" ++ (
  g!"func (_d TestInterfaceWithTracing) F(ctx context.Context, a1 string, a2 ...string) (result1 string, result2 string, err error) {\n" ++ (
  g!"\t_span, ctx := opentracing.StartSpanFromContext(ctx, _d._instance+\".TestInterface.F\")\n" ++ (
  g!"\tdefer func() {\n" ++ (
  g!"\t\tif _d._spanDecorator != nil {\n" ++ (
  g!"\t\t\t_d._spanDecorator(_span, map[string]interface{}{\n" ++ (
  g!"\t\t\t\t\"ctx\": ctx,\n" ++ (
  g!"\t\t\t\t\"a1\":  a1,\n" ++ (
  g!"\t\t\t\t\"a2\":  a2}, map[string]interface{}{\n" ++ (
  g!"\t\t\t\t\"result1\": result1,\n" ++ (
  g!"\t\t\t\t\"result2\": result2,\n" ++ (
  g!"\t\t\t\t\"err\":     err})\n" ++ (
  g!"\t\t} else if err != nil {\n" ++ (
  g!"\t\t\t_ext.Error.Set(_span, true)\n" ++ (
  g!"\t\t\t_span.LogFields(\n" ++ (
  g!"\t\t\t\t_log.String(\"event\", \"error\"),\n" ++ (
  g!"\t\t\t\t_log.String(\"message\", err.Error()),\n" ++ (
  g!"\t\t\t)\n" ++ (
  g!"\t\t}\n" ++ (
  g!"\n" ++ (
  g!"\t\t_span.Finish()\n" ++ (
  g!"\t}()\n" ++ (
  g!"\treturn _d.TestInterface.F(ctx, a1, a2...)\n" ++ (
  g!"}\n"))))))))))))))))))))))))))))))))))))))))))))))))))))))))))))))))))))))))))))

/-- templates_tests/interface_with_prometheus.go:1-96 -/
def prometheus : Str :=
  g!"// Code generated by gowrap. DO NOT EDIT.\n" ++ (
  g!"// template: ../templates/prometheus\n" ++ (
  g!"// gowrap: http://github.com/hexdigest/gowrap\n" ++ (
  g!"\n" ++ (
  g!"package templatestests\n" ++ (
  g!"\n" ++ (
  g!"//go:generate gowrap gen -p github.com/hexdigest/gowrap/templates_tests -i TestInterface -t ../templates/prometheus -o interface_with_prometheus.go -l \"\"\n" ++ (
  g!"\n" ++ (
  g!"import (\n" ++ (
  g!"\t\"context\"\n" ++ (
  g!"\t\"time\"\n" ++ (
  g!"\n" ++ (
  g!"\t\"github.com/prometheus/client_golang/prometheus\"\n" ++ (
  g!"\t\"github.com/prometheus/client_golang/prometheus/promauto\"\n" ++ (
  g!")\n" ++ (
  g!"\n" ++ (
  g!"// TestInterfaceWithPrometheus implements TestInterface interface with all methods wrapped\n" ++ (
  g!"// with Prometheus metrics\n" ++ (
  g!"type TestInterfaceWithPrometheus struct {\n" ++ (
  g!"\tbase         TestInterface\n" ++ (
  g!"\tinstanceName string\n" ++ (
  g!"}\n" ++ (
  g!"\n" ++ (
  g!"var testinterfaceDurationSummaryVec = promauto.NewSummaryVec(\n" ++ (
  g!"\tprometheus.SummaryOpts{\n" ++ (
  g!"\t\tName:       \"testinterface_duration_seconds\",\n" ++ (
  g!"\t\tHelp:       \"testinterface runtime duration and result\",\n" ++ (
  g!"\t\tMaxAge:     time.Minute,\n" ++ (
  g!"\t\tObjectives: map[float64]float64{0.5: 0.05, 0.9: 0.01, 0.99: 0.001},\n" ++ (
  g!"\t},\n" ++ (
  g!"\t[]string{\"instance_name\", \"method\", \"result\"})\n" ++ (
  g!"\n" ++ (
  g!"// NewTestInterfaceWithPrometheus returns an instance of the TestInterface decorated with prometheus summary metric\n" ++ (
  g!"func NewTestInterfaceWithPrometheus(base TestInterface, instanceName string) TestInterfaceWithPrometheus {\n" ++ (
  g!"\treturn TestInterfaceWithPrometheus{\n" ++ (
  g!"\t\tbase:         base,\n" ++ (
  g!"\t\tinstanceName: instanceName,\n" ++ (
  g!"\t}\n" ++ (
  g!"}\n" ++ (
  g!"\n" ++ (
  g!"// Channels implements TestInterface\n" ++ (
  g!"func (_d TestInterfaceWithPrometheus) Channels(chA chan bool, chB chan<- bool, chanC <-chan bool) {\n" ++ (
  g!"\t_since := time.Now()\n" ++ (
  g!"\tdefer func() {\n" ++ (
  g!"\t\tresult := \"ok\"\n" ++ (
  g!"\t\ttestinterfaceDurationSummaryVec.WithLabelValues(_d.instanceName, \"Channels\", result).Observe(time.Since(_since).Seconds())\n" ++ (
  g!"\t}()\n" ++ (
  g!"\t_d.base.Channels(chA, chB, chanC)\n" ++ (
  g!"\treturn\n" ++ (
  g!"}\n" ++ (
  g!"\n" ++ (
  g!"// ContextNoError implements TestInterface\n" ++ (
  g!"func (_d TestInterfaceWithPrometheus) ContextNoError(ctx context.Context, a1 string, a2 string) {\n" ++ (
  g!"\t_since := time.Now()\n" ++ (
  g!"\tdefer func() {\n" ++ (
  g!"\t\tresult := \"ok\"\n" ++ (
  g!"\t\ttestinterfaceDurationSummaryVec.WithLabelValues(_d.instanceName, \"ContextNoError\", result).Observe(time.Since(_since).Seconds())\n" ++ (
  g!"\t}()\n" ++ (
  g!"\t_d.base.ContextNoError(ctx, a1, a2)\n" ++ (
  g!"\treturn\n" ++ (
  g!"}\n" ++ (
  g!"\n" ++ (
  g!"// F implements TestInterface\n" ++ (
  g!"func (_d TestInterfaceWithPrometheus) F(ctx context.Context, a1 string, a2 ...string) (result1 string, result2 string, err error) {\n" ++ (
  g!"\t_since := time.Now()\n" ++ (
  g!"\tdefer func() {\n" ++ (
  g!"\t\tresult := \"ok\"\n" ++ (
  g!"\t\tif err != nil {\n" ++ (
  g!"\t\t\tresult = \"error\"\n" ++ (
  g!"\t\t}\n" ++ (
  g!"\n" ++ (
  g!"\t\ttestinterfaceDurationSummaryVec.WithLabelValues(_d.instanceName, \"F\", result).Observe(time.Since(_since).Seconds())\n" ++ (
  g!"\t}()\n" ++ (
  g!"\treturn _d.base.F(ctx, a1, a2...)\n" ++ (
  g!"}\n" ++ (
  g!"\n" ++ (
  g!"// NoError implements TestInterface\n" ++ (
  g!"func (_d TestInterfaceWithPrometheus) NoError(s1 string) (s2 string) {\n" ++ (
  g!"\t_since := time.Now()\n" ++ (
  g!"\tdefer func() {\n" ++ (
  g!"\t\tresult := \"ok\"\n" ++ (
  g!"\t\ttestinterfaceDurationSummaryVec.WithLabelValues(_d.instanceName, \"NoError\", result).Observe(time.Since(_since).Seconds())\n" ++ (
  g!"\t}()\n" ++ (
  g!"\treturn _d.base.NoError(s1)\n" ++ (
  g!"}\n" ++ (
  g!"\n" ++ (
  g!"// NoParamsOrResults implements TestInterface\n" ++ (
  g!"func (_d TestInterfaceWithPrometheus) NoParamsOrResults() {\n" ++ (
  g!"\t_since := time.Now()\n" ++ (
  g!"\tdefer func() {\n" ++ (
  g!"\t\tresult := \"ok\"\n" ++ (
  g!"\t\ttestinterfaceDurationSummaryVec.WithLabelValues(_d.instanceName, \"NoParamsOrResults\", result).Observe(time.Since(_since).Seconds())\n" ++ (
  g!"\t}()\n" ++ (
  g!"\t_d.base.NoParamsOrResults()\n" ++ (
  g!"\treturn\n" ++ (
  g!"}\n")))))))))))))))))))))))))))))))))))))))))))))))))))))))))))))))))))))))))))))))))))))))))))))))

/-- templates_tests/interface_with_prometheus_metric_name.go:1-85 -/
def prometheusMetricName : Str :=
  g!"// Code generated by gowrap. DO NOT EDIT.\n" ++ (
  g!"// template: ../templates/prometheus\n" ++ (
  g!"// gowrap: http://github.com/hexdigest/gowrap\n" ++ (
  g!"\n" ++ (
  g!"package templatestests\n" ++ (
  g!"\n" ++ (
  g!"//go:generate gowrap gen -p github.com/hexdigest/gowrap/templates_tests -i AnotherTestInterface -t ../templates/prometheus -o interface_with_prometheus_metric_name.go -v MetricName=custom_metric_name_seconds -l \"\"\n" ++ (
  g!"\n" ++ (
  g!"import (\n" ++ (
  g!"\t\"context\"\n" ++ (
  g!"\t\"time\"\n" ++ (
  g!"\n" ++ (
  g!"\t\"github.com/prometheus/client_golang/prometheus\"\n" ++ (
  g!"\t\"github.com/prometheus/client_golang/prometheus/promauto\"\n" ++ (
  g!")\n" ++ (
  g!"\n" ++ (
  g!"// AnotherTestInterfaceWithPrometheus implements AnotherTestInterface interface with all methods wrapped\n" ++ (
  g!"// with Prometheus metrics\n" ++ (
  g!"type AnotherTestInterfaceWithPrometheus struct {\n" ++ (
  g!"\tbase         AnotherTestInterface\n" ++ (
  g!"\tinstanceName string\n" ++ (
  g!"}\n" ++ (
  g!"\n" ++ (
  g!"var anothertestinterfaceDurationSummaryVec = promauto.NewSummaryVec(\n" ++ (
  g!"\tprometheus.SummaryOpts{\n" ++ (
  g!"\t\tName:       \"custom_metric_name_seconds\",\n" ++ (
  g!"\t\tHelp:       \"anothertestinterface runtime duration and result\",\n" ++ (
  g!"\t\tMaxAge:     time.Minute,\n" ++ (
  g!"\t\tObjectives: map[float64]float64{0.5: 0.05, 0.9: 0.01, 0.99: 0.001},\n" ++ (
  g!"\t},\n" ++ (
  g!"\t[]string{\"instance_name\", \"method\", \"result\"})\n" ++ (
  g!"\n" ++ (
  g!"// NewAnotherTestInterfaceWithPrometheus returns an instance of the AnotherTestInterface decorated with prometheus summary metric\n" ++ (
  g!"func NewAnotherTestInterfaceWithPrometheus(base AnotherTestInterface, instanceName string) AnotherTestInterfaceWithPrometheus {\n" ++ (
  g!"\treturn AnotherTestInterfaceWithPrometheus{\n" ++ (
  g!"\t\tbase:         base,\n" ++ (
  g!"\t\tinstanceName: instanceName,\n" ++ (
  g!"\t}\n" ++ (
  g!"}\n" ++ (
  g!"\n" ++ (
  g!"// Channels implements AnotherTestInterface\n" ++ (
  g!"func (_d AnotherTestInterfaceWithPrometheus) Channels(chA chan bool, chB chan<- bool, chanC <-chan bool) {\n" ++ (
  g!"\t_since := time.Now()\n" ++ (
  g!"\tdefer func() {\n" ++ (
  g!"\t\tresult := \"ok\"\n" ++ (
  g!"\t\tanothertestinterfaceDurationSummaryVec.WithLabelValues(_d.instanceName, \"Channels\", result).Observe(time.Since(_since).Seconds())\n" ++ (
  g!"\t}()\n" ++ (
  g!"\t_d.base.Channels(chA, chB, chanC)\n" ++ (
  g!"\treturn\n" ++ (
  g!"}\n" ++ (
  g!"\n" ++ (
  g!"// F implements AnotherTestInterface\n" ++ (
  g!"func (_d AnotherTestInterfaceWithPrometheus) F(ctx context.Context, a1 string, a2 ...string) (result1 string, result2 string, err error) {\n" ++ (
  g!"\t_since := time.Now()\n" ++ (
  g!"\tdefer func() {\n" ++ (
  g!"\t\tresult := \"ok\"\n" ++ (
  g!"\t\tif err != nil {\n" ++ (
  g!"\t\t\tresult = \"error\"\n" ++ (
  g!"\t\t}\n" ++ (
  g!"\n" ++ (
  g!"\t\tanothertestinterfaceDurationSummaryVec.WithLabelValues(_d.instanceName, \"F\", result).Observe(time.Since(_since).Seconds())\n" ++ (
  g!"\t}()\n" ++ (
  g!"\treturn _d.base.F(ctx, a1, a2...)\n" ++ (
  g!"}\n" ++ (
  g!"\n" ++ (
  g!"// NoError implements AnotherTestInterface\n" ++ (
  g!"func (_d AnotherTestInterfaceWithPrometheus) NoError(s1 string) (s2 string) {\n" ++ (
  g!"\t_since := time.Now()\n" ++ (
  g!"\tdefer func() {\n" ++ (
  g!"\t\tresult := \"ok\"\n" ++ (
  g!"\t\tanothertestinterfaceDurationSummaryVec.WithLabelValues(_d.instanceName, \"NoError\", result).Observe(time.Since(_since).Seconds())\n" ++ (
  g!"\t}()\n" ++ (
  g!"\treturn _d.base.NoError(s1)\n" ++ (
  g!"}\n" ++ (
  g!"\n" ++ (
  g!"// NoParamsOrResults implements AnotherTestInterface\n" ++ (
  g!"func (_d AnotherTestInterfaceWithPrometheus) NoParamsOrResults() {\n" ++ (
  g!"\t_since := time.Now()\n" ++ (
  g!"\tdefer func() {\n" ++ (
  g!"\t\tresult := \"ok\"\n" ++ (
  g!"\t\tanothertestinterfaceDurationSummaryVec.WithLabelValues(_d.instanceName, \"NoParamsOrResults\", result).Observe(time.Since(_since).Seconds())\n" ++ (
  g!"\t}()\n" ++ (
  g!"\t_d.base.NoParamsOrResults()\n" ++ (
  g!"\treturn\n" ++ (
  g!"}\n"))))))))))))))))))))))))))))))))))))))))))))))))))))))))))))))))))))))))))))))))))))

/-- templates_tests/interface_with_ratelimit.go:1-84 -/
def ratelimit : Str :=
  g!"// Code generated by gowrap. DO NOT EDIT.\n" ++ (
  g!"// template: ../templates/ratelimit\n" ++ (
  g!"// gowrap: http://github.com/hexdigest/gowrap\n" ++ (
  g!"\n" ++ (
  g!"package templatestests\n" ++ (
  g!"\n" ++ (
  g!"//go:generate gowrap gen -p github.com/hexdigest/gowrap/templates_tests -i TestInterface -t ../templates/ratelimit -o interface_with_ratelimit.go -l \"\"\n" ++ (
  g!"\n" ++ (
  g!"import (\n" ++ (
  g!"\t\"context\"\n" ++ (
  g!"\t\"time\"\n" ++ (
  g!")\n" ++ (
  g!"\n" ++ (
  g!"// TestInterfaceWithRateLimit implements TestInterface\n" ++ (
  g!"type TestInterfaceWithRateLimit struct {\n" ++ (
  g!"\t_base  TestInterface\n" ++ (
  g!"\t_ticks chan time.Time\n" ++ (
  g!"}\n" ++ (
  g!"\n" ++ (
  g!"// NewTestInterfaceWithRateLimit instruments an implementation of the TestInterface with rate limiting\n" ++ (
  g!"func NewTestInterfaceWithRateLimit(base TestInterface, burst int, rps float64) *TestInterfaceWithRateLimit {\n" ++ (
  g!"\td := &TestInterfaceWithRateLimit{\n" ++ (
  g!"\t\t_base:  base,\n" ++ (
  g!"\t\t_ticks: make(chan time.Time, burst),\n" ++ (
  g!"\t}\n" ++ (
  g!"\n" ++ (
  g!"\tnow := time.Now()\n" ++ (
  g!"\tfor i := 0; i < burst; i++ {\n" ++ (
  g!"\t\td._ticks <- now\n" ++ (
  g!"\t}\n" ++ (
  g!"\n" ++ (
  g!"\tdelay := time.Duration(float64(time.Second) / rps)\n" ++ (
  g!"\n" ++ (
  g!"\tgo func() {\n" ++ (
  g!"\t\tfor t := range time.Tick(delay) {\n" ++ (
  g!"\t\t\td._ticks <- t\n" ++ (
  g!"\t\t}\n" ++ (
  g!"\t}()\n" ++ (
  g!"\n" ++ (
  g!"\treturn d\n" ++ (
  g!"}\n" ++ (
  g!"\n" ++ (
  g!"// Channels implements TestInterface\n" ++ (
  g!"func (_d *TestInterfaceWithRateLimit) Channels(chA chan bool, chB chan<- bool, chanC <-chan bool) {\n" ++ (
  g!"\t<-_d._ticks\n" ++ (
  g!"\n" ++ (
  g!"\t_d._base.Channels(chA, chB, chanC)\n" ++ (
  g!"\treturn\n" ++ (
  g!"}\n" ++ (
  g!"\n" ++ (
  g!"// ContextNoError implements TestInterface\n" ++ (
  g!"func (_d *TestInterfaceWithRateLimit) ContextNoError(ctx context.Context, a1 string, a2 string) {\n" ++ (
  g!"\t<-_d._ticks\n" ++ (
  g!"\n" ++ (
  g!"\t_d._base.ContextNoError(ctx, a1, a2)\n" ++ (
  g!"\treturn\n" ++ (
  g!"}\n" ++ (
  g!"\n" ++ (
  g!"// F implements TestInterface\n" ++ (
  g!"func (_d *TestInterfaceWithRateLimit) F(ctx context.Context, a1 string, a2 ...string) (result1 string, result2 string, err error) {\n" ++ (
  g!"\tselect {\n" ++ (
  g!"\tcase <-ctx.Done():\n" ++ (
  g!"\t\terr = ctx.Err()\n" ++ (
  g!"\t\treturn\n" ++ (
  g!"\tcase <-_d._ticks:\n" ++ (
  g!"\t}\n" ++ (
  g!"\n" ++ (
  g!"\treturn _d._base.F(ctx, a1, a2...)\n" ++ (
  g!"}\n" ++ (
  g!"\n" ++ (
  g!"// NoError implements TestInterface\n" ++ (
  g!"func (_d *TestInterfaceWithRateLimit) NoError(s1 string) (s2 string) {\n" ++ (
  g!"\t<-_d._ticks\n" ++ (
  g!"\n" ++ (
  g!"\treturn _d._base.NoError(s1)\n" ++ (
  g!"}\n" ++ (
  g!"\n" ++ (
  g!"// NoParamsOrResults implements TestInterface\n" ++ (
  g!"func (_d *TestInterfaceWithRateLimit) NoParamsOrResults() {\n" ++ (
  g!"\t<-_d._ticks\n" ++ (
  g!"\n" ++ (
  g!"\t_d._base.NoParamsOrResults()\n" ++ (
  g!"\treturn\n" ++ (
  g!"}\n")))))))))))))))))))))))))))))))))))))))))))))))))))))))))))))))))))))))))))))))))))

/-- templates_tests/interface_with_retry.go:1-47 -/
def retry : Str :=
  g!"// Code generated by gowrap. DO NOT EDIT.\n" ++ (
  g!"// template: ../templates/retry\n" ++ (
  g!"// gowrap: http://github.com/hexdigest/gowrap\n" ++ (
  g!"\n" ++ (
  g!"package templatestests\n" ++ (
  g!"\n" ++ (
  g!"//go:generate gowrap gen -p github.com/hexdigest/gowrap/templates_tests -i TestInterface -t ../templates/retry -o interface_with_retry.go -l \"\"\n" ++ (
  g!"\n" ++ (
  g!"import (\n" ++ (
  g!"\t\"context\"\n" ++ (
  g!"\t\"time\"\n" ++ (
  g!")\n" ++ (
  g!"\n" ++ (
  g!"// TestInterfaceWithRetry implements TestInterface interface instrumented with retries\n" ++ (
  g!"type TestInterfaceWithRetry struct {\n" ++ (
  g!"\tTestInterface\n" ++ (
  g!"\t_retryCount    int\n" ++ (
  g!"\t_retryInterval time.Duration\n" ++ (
  g!"}\n" ++ (
  g!"\n" ++ (
  g!"// NewTestInterfaceWithRetry returns TestInterfaceWithRetry\n" ++ (
  g!"func NewTestInterfaceWithRetry(base TestInterface, retryCount int, retryInterval time.Duration) TestInterfaceWithRetry {\n" ++ (
  g!"\treturn TestInterfaceWithRetry{\n" ++ (
  g!"\t\tTestInterface:  base,\n" ++ (
  g!"\t\t_retryCount:    retryCount,\n" ++ (
  g!"\t\t_retryInterval: retryInterval,\n" ++ (
  g!"\t}\n" ++ (
  g!"}\n" ++ (
  g!"\n" ++ (
  g!"// F implements TestInterface\n" ++ (
  g!"func (_d TestInterfaceWithRetry) F(ctx context.Context, a1 string, a2 ...string) (result1 string, result2 string, err error) {\n" ++ (
  g!"\tresult1, result2, err = _d.TestInterface.F(ctx, a1, a2...)\n" ++ (
  g!"\tif err == nil || _d._retryCount < 1 {\n" ++ (
  g!"\t\treturn\n" ++ (
  g!"\t}\n" ++ (
  g!"\t_ticker := time.NewTicker(_d._retryInterval)\n" ++ (
  g!"\tdefer _ticker.Stop()\n" ++ (
  g!"\tfor _i := 0; _i < _d._retryCount && err != nil; _i++ {\n" ++ (
  g!"\t\tselect {\n" ++ (
  g!"\t\tcase <-ctx.Done():\n" ++ (
  g!"\t\t\treturn\n" ++ (
  g!"\t\tcase <-_ticker.C:\n" ++ (
  g!"\t\t}\n" ++ (
  g!"\t\tresult1, result2, err = _d.TestInterface.F(ctx, a1, a2...)\n" ++ (
  g!"\t}\n" ++ (
  g!"\treturn\n" ++ (
  g!"}\n"))))))))))))))))))))))))))))))))))))))))))))))

/-- templates_tests/interface_with_robinpool.go:1-73 -/
def robinpool : Str :=
  g!"// Code generated by gowrap. DO NOT EDIT.\n" ++ (
  g!"// template: ../templates/robinpool\n" ++ (
  g!"// gowrap: http://github.com/hexdigest/gowrap\n" ++ (
  g!"\n" ++ (
  g!"package templatestests\n" ++ (
  g!"\n" ++ (
  g!"//go:generate gowrap gen -p github.com/hexdigest/gowrap/templates_tests -i TestInterface -t ../templates/robinpool -o interface_with_robinpool.go -l \"\"\n" ++ (
  g!"\n" ++ (
  g!"import (\n" ++ (
  g!"\t\"context\"\n" ++ (
  g!"\t\"errors\"\n" ++ (
  g!"\t\"sync/atomic\"\n" ++ (
  g!")\n" ++ (
  g!"\n" ++ (
  g!"// TestInterfaceRoundRobinPool implements TestInterface that uses pool of TestInterface\n" ++ (
  g!"type TestInterfaceRoundRobinPool struct {\n" ++ (
  g!"\tpool     []TestInterface\n" ++ (
  g!"\tpoolSize uint32\n" ++ (
  g!"\tcounter  uint32\n" ++ (
  g!"}\n" ++ (
  g!"\n" ++ (
  g!"// NewTestInterfaceRoundRobinPool takes several implementations of the TestInterface and returns an instance of the TestInterface\n" ++ (
  g!"// that picks one of the given implementations using Round-robin algorithm and delegates method call to it\n" ++ (
  g!"func NewTestInterfaceRoundRobinPool(pool ...TestInterface) (*TestInterfaceRoundRobinPool, error) {\n" ++ (
  g!"\tif len(pool) == 0 {\n" ++ (
  g!"\t\treturn nil, errors.New(\"empty pool\")\n" ++ (
  g!"\t}\n" ++ (
  g!"\n" ++ (
  g!"\treturn &TestInterfaceRoundRobinPool{pool: pool, poolSize: uint32(len(pool))}, nil\n" ++ (
  g!"}\n" ++ (
  g!"\n" ++ (
  g!"// MustNewTestInterfaceRoundRobinPool takes several implementations of the TestInterface and returns an instance of the TestInterface\n" ++ (
  g!"// that picks one of the given implementations using Round-robin algorithm and delegates method call to it.\n" ++ (
  g!"func MustNewTestInterfaceRoundRobinPool(pool ...TestInterface) *TestInterfaceRoundRobinPool {\n" ++ (
  g!"\tif len(pool) == 0 {\n" ++ (
  g!"\t\tpanic(\"empty pool\")\n" ++ (
  g!"\t}\n" ++ (
  g!"\n" ++ (
  g!"\treturn &TestInterfaceRoundRobinPool{pool: pool, poolSize: uint32(len(pool))}\n" ++ (
  g!"}\n" ++ (
  g!"\n" ++ (
  g!"// Channels implements TestInterface\n" ++ (
  g!"func (_d *TestInterfaceRoundRobinPool) Channels(chA chan bool, chB chan<- bool, chanC <-chan bool) {\n" ++ (
  g!"\t_counter := atomic.AddUint32(&_d.counter, 1)\n" ++ (
  g!"\t_d.pool[_counter%_d.poolSize].Channels(chA, chB, chanC)\n" ++ (
  g!"\treturn\n" ++ (
  g!"}\n" ++ (
  g!"\n" ++ (
  g!"// ContextNoError implements TestInterface\n" ++ (
  g!"func (_d *TestInterfaceRoundRobinPool) ContextNoError(ctx context.Context, a1 string, a2 string) {\n" ++ (
  g!"\t_counter := atomic.AddUint32(&_d.counter, 1)\n" ++ (
  g!"\t_d.pool[_counter%_d.poolSize].ContextNoError(ctx, a1, a2)\n" ++ (
  g!"\treturn\n" ++ (
  g!"}\n" ++ (
  g!"\n" ++ (
  g!"// F implements TestInterface\n" ++ (
  g!"func (_d *TestInterfaceRoundRobinPool) F(ctx context.Context, a1 string, a2 ...string) (result1 string, result2 string, err error) {\n" ++ (
  g!"\t_counter := atomic.AddUint32(&_d.counter, 1)\n" ++ (
  g!"\treturn _d.pool[_counter%_d.poolSize].F(ctx, a1, a2...)\n" ++ (
  g!"}\n" ++ (
  g!"\n" ++ (
  g!"// NoError implements TestInterface\n" ++ (
  g!"func (_d *TestInterfaceRoundRobinPool) NoError(s1 string) (s2 string) {\n" ++ (
  g!"\t_counter := atomic.AddUint32(&_d.counter, 1)\n" ++ (
  g!"\treturn _d.pool[_counter%_d.poolSize].NoError(s1)\n" ++ (
  g!"}\n" ++ (
  g!"\n" ++ (
  g!"// NoParamsOrResults implements TestInterface\n" ++ (
  g!"func (_d *TestInterfaceRoundRobinPool) NoParamsOrResults() {\n" ++ (
  g!"\t_counter := atomic.AddUint32(&_d.counter, 1)\n" ++ (
  g!"\t_d.pool[_counter%_d.poolSize].NoParamsOrResults()\n" ++ (
  g!"\treturn\n" ++ (
  g!"}\n"))))))))))))))))))))))))))))))))))))))))))))))))))))))))))))))))))))))))

/-- templates_tests/interface_with_syncpool.go:1-77 -/
def syncpool : Str :=
  g!"// Code generated by gowrap. DO NOT EDIT.\n" ++ (
  g!"// template: ../templates/syncpool\n" ++ (
  g!"// gowrap: http://github.com/hexdigest/gowrap\n" ++ (
  g!"\n" ++ (
  g!"package templatestests\n" ++ (
  g!"\n" ++ (
  g!"import \"context\"\n" ++ (
  g!"\n" ++ (
  g!"//go:generate gowrap gen -p github.com/hexdigest/gowrap/templates_tests -i TestInterface -t ../templates/syncpool -o interface_with_syncpool.go -l \"\"\n" ++ (
  g!"\n" ++ (
  g!"// TestInterfacePool implements TestInterface that uses pool of TestInterface\n" ++ (
  g!"type TestInterfacePool struct {\n" ++ (
  g!"\tpool chan TestInterface\n" ++ (
  g!"}\n" ++ (
  g!"\n" ++ (
  g!"// NewTestInterfacePool takes several implementations of the TestInterface and returns an instance of the TestInterface\n" ++ (
  g!"// that uses sync.Pool of given implemetations\n" ++ (
  g!"func NewTestInterfacePool(impls ...TestInterface) TestInterfacePool {\n" ++ (
  g!"\tif len(impls) == 0 {\n" ++ (
  g!"\t\tpanic(\"empty pool\")\n" ++ (
  g!"\t}\n" ++ (
  g!"\n" ++ (
  g!"\tpool := make(chan TestInterface, len(impls))\n" ++ (
  g!"\tfor _, i := range impls {\n" ++ (
  g!"\t\tpool <- i\n" ++ (
  g!"\t}\n" ++ (
  g!"\n" ++ (
  g!"\treturn TestInterfacePool{pool: pool}\n" ++ (
  g!"}\n" ++ (
  g!"\n" ++ (
  g!"// Channels implements TestInterface\n" ++ (
  g!"func (_d TestInterfacePool) Channels(chA chan bool, chB chan<- bool, chanC <-chan bool) {\n" ++ (
  g!"\t_impl := <-_d.pool\n" ++ (
  g!"\tdefer func() {\n" ++ (
  g!"\t\t_d.pool <- _impl\n" ++ (
  g!"\t}()\n" ++ (
  g!"\t_impl.Channels(chA, chB, chanC)\n" ++ (
  g!"\treturn\n" ++ (
  g!"}\n" ++ (
  g!"\n" ++ (
  g!"// ContextNoError implements TestInterface\n" ++ (
  g!"func (_d TestInterfacePool) ContextNoError(ctx context.Context, a1 string, a2 string) {\n" ++ (
  g!"\t_impl := <-_d.pool\n" ++ (
  g!"\tdefer func() {\n" ++ (
  g!"\t\t_d.pool <- _impl\n" ++ (
  g!"\t}()\n" ++ (
  g!"\t_impl.ContextNoError(ctx, a1, a2)\n" ++ (
  g!"\treturn\n" ++ (
  g!"}\n" ++ (
  g!"\n" ++ (
  g!"// F implements TestInterface\n" ++ (
  g!"func (_d TestInterfacePool) F(ctx context.Context, a1 string, a2 ...string) (result1 string, result2 string, err error) {\n" ++ (
  g!"\t_impl := <-_d.pool\n" ++ (
  g!"\tdefer func() {\n" ++ (
  g!"\t\t_d.pool <- _impl\n" ++ (
  g!"\t}()\n" ++ (
  g!"\treturn _impl.F(ctx, a1, a2...)\n" ++ (
  g!"}\n" ++ (
  g!"\n" ++ (
  g!"// NoError implements TestInterface\n" ++ (
  g!"func (_d TestInterfacePool) NoError(s1 string) (s2 string) {\n" ++ (
  g!"\t_impl := <-_d.pool\n" ++ (
  g!"\tdefer func() {\n" ++ (
  g!"\t\t_d.pool <- _impl\n" ++ (
  g!"\t}()\n" ++ (
  g!"\treturn _impl.NoError(s1)\n" ++ (
  g!"}\n" ++ (
  g!"\n" ++ (
  g!"// NoParamsOrResults implements TestInterface\n" ++ (
  g!"func (_d TestInterfacePool) NoParamsOrResults() {\n" ++ (
  g!"\t_impl := <-_d.pool\n" ++ (
  g!"\tdefer func() {\n" ++ (
  g!"\t\t_d.pool <- _impl\n" ++ (
  g!"\t}()\n" ++ (
  g!"\t_impl.NoParamsOrResults()\n" ++ (
  g!"\treturn\n" ++ (
  g!"}\n"))))))))))))))))))))))))))))))))))))))))))))))))))))))))))))))))))))))))))))

/-- templates_tests/interface_with_timeout.go:1-53 -/
def timeout : Str :=
  g!"// Code generated by gowrap. DO NOT EDIT.\n" ++ (
  g!"// template: ../templates/timeout\n" ++ (
  g!"// gowrap: http://github.com/hexdigest/gowrap\n" ++ (
  g!"\n" ++ (
  g!"package templatestests\n" ++ (
  g!"\n" ++ (
  g!"//go:generate gowrap gen -p github.com/hexdigest/gowrap/templates_tests -i TestInterface -t ../templates/timeout -o interface_with_timeout.go -l \"\"\n" ++ (
  g!"\n" ++ (
  g!"import (\n" ++ (
  g!"\t\"context\"\n" ++ (
  g!"\t\"time\"\n" ++ (
  g!")\n" ++ (
  g!"\n" ++ (
  g!"// TestInterfaceWithTimeout implements TestInterface interface instrumented with timeouts\n" ++ (
  g!"type TestInterfaceWithTimeout struct {\n" ++ (
  g!"\tTestInterface\n" ++ (
  g!"\tconfig TestInterfaceWithTimeoutConfig\n" ++ (
  g!"}\n" ++ (
  g!"\n" ++ (
  g!"type TestInterfaceWithTimeoutConfig struct {\n" ++ (
  g!"\tContextNoErrorTimeout time.Duration\n" ++ (
  g!"\n" ++ (
  g!"\tFTimeout time.Duration\n" ++ (
  g!"}\n" ++ (
  g!"\n" ++ (
  g!"// NewTestInterfaceWithTimeout returns TestInterfaceWithTimeout\n" ++ (
  g!"func NewTestInterfaceWithTimeout(base TestInterface, config TestInterfaceWithTimeoutConfig) TestInterfaceWithTimeout {\n" ++ (
  g!"\treturn TestInterfaceWithTimeout{\n" ++ (
  g!"\t\tTestInterface: base,\n" ++ (
  g!"\t\tconfig:        config,\n" ++ (
  g!"\t}\n" ++ (
  g!"}\n" ++ (
  g!"\n" ++ (
  g!"// ContextNoError implements TestInterface\n" ++ (
  g!"func (_d TestInterfaceWithTimeout) ContextNoError(ctx context.Context, a1 string, a2 string) {\n" ++ (
  g!"\tvar cancelFunc func()\n" ++ (
  g!"\tif _d.config.ContextNoErrorTimeout > 0 {\n" ++ (
  g!"\t\tctx, cancelFunc = context.WithTimeout(ctx, _d.config.ContextNoErrorTimeout)\n" ++ (
  g!"\t\tdefer cancelFunc()\n" ++ (
  g!"\t}\n" ++ (
  g!"\t_d.TestInterface.ContextNoError(ctx, a1, a2)\n" ++ (
  g!"\treturn\n" ++ (
  g!"}\n" ++ (
  g!"\n" ++ (
  g!"// F implements TestInterface\n" ++ (
  g!"func (_d TestInterfaceWithTimeout) F(ctx context.Context, a1 string, a2 ...string) (result1 string, result2 string, err error) {\n" ++ (
  g!"\tvar cancelFunc func()\n" ++ (
  g!"\tif _d.config.FTimeout > 0 {\n" ++ (
  g!"\t\tctx, cancelFunc = context.WithTimeout(ctx, _d.config.FTimeout)\n" ++ (
  g!"\t\tdefer cancelFunc()\n" ++ (
  g!"\t}\n" ++ (
  g!"\treturn _d.TestInterface.F(ctx, a1, a2...)\n" ++ (
  g!"}\n"))))))))))))))))))))))))))))))))))))))))))))))))))))

/-- templates_tests/interface_with_twirp_error.go:1-47 -/
def twirpError : Str :=
  g!"// Code generated by gowrap. DO NOT EDIT.\n" ++ (
  g!"// template: ../templates/twirp_error\n" ++ (
  g!"// gowrap: http://github.com/hexdigest/gowrap\n" ++ (
  g!"\n" ++ (
  g!"package templatestests\n" ++ (
  g!"\n" ++ (
  g!"//go:generate gowrap gen -p github.com/hexdigest/gowrap/templates_tests -i InterfaceWithTwirpError -t ../templates/twirp_error -o interface_with_twirp_error.go -l \"\"\n" ++ (
  g!"\n" ++ (
  g!"import (\n" ++ (
  g!"\t\"context\"\n" ++ (
  g!"\t\"encoding/json\"\n" ++ (
  g!"\n" ++ (
  g!"\t\"github.com/twitchtv/twirp\"\n" ++ (
  g!")\n" ++ (
  g!"\n" ++ (
  g!"// InterfaceWithTwirpErrorWithTwirpError implements InterfaceWithTwirpError interface instrumented such that the request data is injected into twirp.Error as metadata\n" ++ (
  g!"type InterfaceWithTwirpErrorWithTwirpError struct {\n" ++ (
  g!"\tInterfaceWithTwirpError\n" ++ (
  g!"}\n" ++ (
  g!"\n" ++ (
  g!"// NewInterfaceWithTwirpErrorWithTwirpError returns InterfaceWithTwirpErrorWithTwirpError\n" ++ (
  g!"func NewInterfaceWithTwirpErrorWithTwirpError(base InterfaceWithTwirpError) InterfaceWithTwirpErrorWithTwirpError {\n" ++ (
  g!"\treturn InterfaceWithTwirpErrorWithTwirpError{\n" ++ (
  g!"\t\tInterfaceWithTwirpError: base,\n" ++ (
  g!"\t}\n" ++ (
  g!"}\n" ++ (
  g!"\n" ++ (
  g!"// Method implements InterfaceWithTwirpError\n" ++ (
  g!"func (_d InterfaceWithTwirpErrorWithTwirpError) Method(ctx context.Context, r *MethodRequest) (mp1 *MethodResponse, err error) {\n" ++ (
  g!"\n" ++ (
  g!"\tdefer injectRequestDataToError(r, &err)\n" ++ (
  g!"\n" ++ (
  g!"\treturn _d.InterfaceWithTwirpError.Method(ctx, r)\n" ++ (
  g!"}\n" ++ (
  g!"\n" ++ (
  g!"func injectRequestDataToError(req interface{}, perr *error) {\n" ++ (
  g!"\terr := *perr\n" ++ (
  g!"\tif err != nil {\n" ++ (
  g!"\t\ttwerr, ok := err.(twirp.Error)\n" ++ (
  g!"\t\tif !ok {\n" ++ (
  g!"\t\t\ttwerr = twirp.InternalErrorWith(err)\n" ++ (
  g!"\t\t}\n" ++ (
  g!"\n" ++ (
  g!"\t\tjsonReq, _ := json.Marshal(req)\n" ++ (
  g!"\t\t*perr = twerr.WithMeta(\"request\", string(jsonReq))\n" ++ (
  g!"\t}\n" ++ (
  g!"}\n"))))))))))))))))))))))))))))))))))))))))))))))

/-- templates_tests/interface_with_twirp_validation.go:1-38 -/
def twirpValidation : Str :=
  g!"// Code generated by gowrap. DO NOT EDIT.\n" ++ (
  g!"// template: ../templates/twirp_validate\n" ++ (
  g!"// gowrap: http://github.com/hexdigest/gowrap\n" ++ (
  g!"\n" ++ (
  g!"package templatestests\n" ++ (
  g!"\n" ++ (
  g!"//go:generate gowrap gen -p github.com/hexdigest/gowrap/templates_tests -i InterfaceWithValidtableArg -t ../templates/twirp_validate -o interface_with_twirp_validation.go -l \"\"\n" ++ (
  g!"\n" ++ (
  g!"import (\n" ++ (
  g!"\t\"context\"\n" ++ (
  g!"\n" ++ (
  g!"\t\"github.com/twitchtv/twirp\"\n" ++ (
  g!")\n" ++ (
  g!"\n" ++ (
  g!"// InterfaceWithValidtableArgWithTwirpValidation implements InterfaceWithValidtableArg interface instrumented with arguments validation\n" ++ (
  g!"type InterfaceWithValidtableArgWithTwirpValidation struct {\n" ++ (
  g!"\tInterfaceWithValidtableArg\n" ++ (
  g!"}\n" ++ (
  g!"\n" ++ (
  g!"// NewInterfaceWithValidtableArgWithTwirpValidation returns InterfaceWithValidtableArgWithTwirpValidation\n" ++ (
  g!"func NewInterfaceWithValidtableArgWithTwirpValidation(base InterfaceWithValidtableArg) InterfaceWithValidtableArgWithTwirpValidation {\n" ++ (
  g!"\treturn InterfaceWithValidtableArgWithTwirpValidation{\n" ++ (
  g!"\t\tInterfaceWithValidtableArg: base,\n" ++ (
  g!"\t}\n" ++ (
  g!"}\n" ++ (
  g!"\n" ++ (
  g!"// Method implements InterfaceWithValidtableArg\n" ++ (
  g!"func (_d InterfaceWithValidtableArgWithTwirpValidation) Method(ctx context.Context, r *ValidatableRequest) (err error) {\n" ++ (
  g!"\n" ++ (
  g!"\tif _v, _ok := interface{}(r).(interface{ Validate() error }); _ok {\n" ++ (
  g!"\t\tif err = _v.Validate(); err != nil {\n" ++ (
  g!"\t\t\terr = twirp.NewError(twirp.InvalidArgument, err.Error())\n" ++ (
  g!"\t\t\treturn\n" ++ (
  g!"\t\t}\n" ++ (
  g!"\t}\n" ++ (
  g!"\n" ++ (
  g!"\treturn _d.InterfaceWithValidtableArg.Method(ctx, r)\n" ++ (
  g!"}\n")))))))))))))))))))))))))))))))))))))

/-- templates_tests/interface_with_validation.go:1-33 -/
def validation : Str :=
  g!"// Code generated by gowrap. DO NOT EDIT.\n" ++ (
  g!"// template: ../templates/validate\n" ++ (
  g!"// gowrap: http://github.com/hexdigest/gowrap\n" ++ (
  g!"\n" ++ (
  g!"package templatestests\n" ++ (
  g!"\n" ++ (
  g!"import \"context\"\n" ++ (
  g!"\n" ++ (
  g!"//go:generate gowrap gen -p github.com/hexdigest/gowrap/templates_tests -i InterfaceWithValidtableArg -t ../templates/validate -o interface_with_validation.go -l \"\"\n" ++ (
  g!"\n" ++ (
  g!"// InterfaceWithValidtableArgWithValidation implements InterfaceWithValidtableArg interface instrumented with arguments validation\n" ++ (
  g!"type InterfaceWithValidtableArgWithValidation struct {\n" ++ (
  g!"\tInterfaceWithValidtableArg\n" ++ (
  g!"}\n" ++ (
  g!"\n" ++ (
  g!"// NewInterfaceWithValidtableArgWithValidation returns InterfaceWithValidtableArgWithValidation\n" ++ (
  g!"func NewInterfaceWithValidtableArgWithValidation(base InterfaceWithValidtableArg) InterfaceWithValidtableArgWithValidation {\n" ++ (
  g!"\treturn InterfaceWithValidtableArgWithValidation{\n" ++ (
  g!"\t\tInterfaceWithValidtableArg: base,\n" ++ (
  g!"\t}\n" ++ (
  g!"}\n" ++ (
  g!"\n" ++ (
  g!"// Method implements InterfaceWithValidtableArg\n" ++ (
  g!"func (_d InterfaceWithValidtableArgWithValidation) Method(ctx context.Context, r *ValidatableRequest) (err error) {\n" ++ (
  g!"\n" ++ (
  g!"\tif _v, _ok := interface{}(r).(interface{ Validate() error }); _ok {\n" ++ (
  g!"\t\tif err = _v.Validate(); err != nil {\n" ++ (
  g!"\t\t\treturn\n" ++ (
  g!"\t\t}\n" ++ (
  g!"\t}\n" ++ (
  g!"\n" ++ (
  g!"\treturn _d.InterfaceWithValidtableArg.Method(ctx, r)\n" ++ (
  g!"}\n"))))))))))))))))))))))))))))))))

end Gowrap.Golden
