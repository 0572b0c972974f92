import Verif.Props.OwnTemplate
import Verif.Props.TemplateVars
/-!
# C101 from the command line to the written bytes
-/

namespace Gowrap.Props

open Gowrap Spec Tmpl Scoped

/-- C101, C100: if the template that is loaded for `-t` declares and prints variables as in C101 and gowrap exits with code 0, then the file that it writes
is what goimports makes of the header and exactly the text that lexical scope says. -/
theorem C101_command {w : World} {sched : Sched} {fuel : Nat} {s : Sys} {p : Proc} {args rest : List Str} {h : List Ev} {f : GenFlags}
    (ha : Words args (g!"gen" :: rest)) (hf : Usable rest f) (t : Prog) (ht : t.Ok) {out : Str} (hr : Scoped.Runs [] t out)
    (hl : ∀ k k' b url, s.loaderLoad f.template k = (.ok (b, url), k') → b = utf8 t.source)
    (h0 : (({ p with sys := w.sys sched fuel s } : Proc).main args h).1 = .code 0) :
    ∃ header source before k, s.process k f.localPrefix f.outputFile (header ++ utf8 out) = .ok source ∧
      (({ p with sys := w.sys sched fuel s } : Proc).main args h).2 =
        before ++ [.mkdirAll (dirPath f.outputFile), .writeFile f.outputFile source true] := by
  obtain ⟨o, g, header, body, source, before, k, ho, hg, hb, hp, he⟩ := run_parts ha hf h0
  refine ⟨header, source, before, k, ?_, he⟩
  obtain ⟨k1, k2, url, h1⟩ := ho.template
  rw [← body_rendered hg hb (hl _ _ _ _ h1) ((C101_scope w.uni (g.inputs (o.forGenerator o.source) o.vars) t ht out).2 hr)]
  exact hp

example : ∃ header source before k,
    (Gowrap.Demo.disk Demo101.hides.source).process k [] g!"./dst/x.go" (header ++ utf8 g!"ba") = .ok source ∧
      (({ Demo.proc with sys := Gowrap.Demo.app.sys Gowrap.Demo.backwards 20 (Gowrap.Demo.disk Demo101.hides.source) } : Proc).main
          (g!"gen" :: ownArgs) []).2 =
        before ++ [.mkdirAll (dirPath g!"./dst/x.go"), .writeFile g!"./dst/x.go" source true] :=
  C101_command (f := ownFlags) (rest := ownArgs) (.plain _ _ (.inr (by decide))) own_flags Demo101.hides Demo101.hides_ok
    (.set (.block (out := g!"b") (.set (.use (v := g!"b") (out := []) .here .done)) (.use (v := g!"a") (out := []) .here .done)))
    own_loaded (by decide +kernel)

end Gowrap.Props
