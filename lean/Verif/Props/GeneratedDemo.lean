import Verif.Proofs.Grammar
/-!
# An interface for the examples of C63 to C66
-/

namespace Gowrap.Props

open Gowrap Tmpl Spec

def getMethod : Method where
  doc := []
  comment := []
  name := g!"Get"
  params := [⟨[], [], g!"ctx", g!"context.Context", false⟩, ⟨[], [], g!"keys", g!"...map[string][]func(int) (bool, error)", true⟩]
  results := [⟨[], [], g!"b1", g!"*bytes.Buffer", false⟩, ⟨[], [], g!"err", g!"error", false⟩]
  returnsError := true
  acceptsContext := true

def lenMethod : Method where
  doc := []
  comment := []
  name := g!"Len"
  params := []
  results := [⟨[], [], g!"i1", g!"int", false⟩]
  returnsError := false
  acceptsContext := false

/-- `gowrap gen -p example.com/store -i Store -v ComponentName=a-b` -/
def storeInputs : Inputs where
  name := g!"Store"
  type := g!"store.Store"
  genericTypes := []
  genericParams := []
  methods := [(g!"Len", lenMethod), (g!"Get", getMethod)]
  vars := fun k => if k = g!"ComponentName" then some (.text g!"a-b") else none
  imports := [g!"\"context\""]

theorem typeSource_of (ts : List Go.Tok) (t : Go.Tok) (c : Char) (r : Str) (h : EndsType t ∧ c ∉ [' ', '\t', '\r', '\n', '/'] ∧
    Go.tokens (c :: r) = some (ts ++ [t, .op g!";"]) ∧ Go.tokens (c :: r ++ g!")") = some (ts ++ [t, .op g!")", .op g!";"])) :
    TypeSource (c :: r) :=
  ⟨⟨c, r, rfl, h.2.1⟩, ts, t, h.1, h.2.2.1, h.2.2.2⟩

/-- The types of the example. -/
theorem store_types : ∀ s ∈ [g!"context.Context", g!"*bytes.Buffer", g!"error", g!"int", g!"store.Store"], TypeSource s := by
  intro s hs
  simp only [List.mem_cons, List.not_mem_nil, or_false] at hs
  rcases hs with rfl | rfl | rfl | rfl | rfl
  · exact typeSource_of [.word g!"context", .op g!"."] (.word g!"Context") _ _ ⟨.inl ⟨_, rfl⟩, by decide +kernel⟩
  · exact typeSource_of [.op g!"*", .word g!"bytes", .op g!"."] (.word g!"Buffer") _ _ ⟨.inl ⟨_, rfl⟩, by decide +kernel⟩
  · exact typeSource_of [] (.word g!"error") _ _ ⟨.inl ⟨_, rfl⟩, by decide +kernel⟩
  · exact typeSource_of [] (.word g!"int") _ _ ⟨.inl ⟨_, rfl⟩, by decide +kernel⟩
  · exact typeSource_of [.word g!"store", .op g!"."] (.word g!"Store") _ _ ⟨.inl ⟨_, rfl⟩, by decide +kernel⟩

theorem store_keys : TypeSource g!"...map[string][]func(int) (bool, error)" :=
  typeSource_of [.op g!"...", .word g!"map", .op g!"[", .word g!"string", .op g!"]", .op g!"[", .op g!"]", .word g!"func", .op g!"(",
    .word g!"int", .op g!")", .op g!"(", .word g!"bool", .op g!",", .word g!"error"] (.op g!")") _ _ ⟨.inr (.inl rfl), by decide +kernel⟩

theorem dots_of {m : Method} (h : ∀ p ∈ m.params ++ m.results, p.variadic = ((Go.typeToks p.type).head? == some (.op g!"..."))) :
    ∀ p ∈ m.params ++ m.results, p.variadic = true ↔ ∃ l, Go.typeToks p.type = .op g!"..." :: l := by
  intro p hp
  rw [h p hp]
  cases Go.typeToks p.type with
  | nil => simp
  | cons t l => simp

theorem get_good : GoMethod getMethod where
  name := by decide +kernel
  names := by decide +kernel
  types := by
    intro p hp
    simp only [getMethod, List.cons_append, List.nil_append, List.mem_cons, List.not_mem_nil, or_false] at hp
    rcases hp with rfl | rfl | rfl | rfl
    · exact store_types _ (by decide)
    · exact store_keys
    · exact store_types _ (by decide)
    · exact store_types _ (by decide)
  ctx := fun _ => ⟨_, _, rfl, rfl⟩
  err := fun _ => nofun
  variadic := by decide
  dots := dots_of (by decide +kernel)
  plain := by decide

theorem len_good : GoMethod lenMethod where
  name := by decide +kernel
  names := by decide +kernel
  types := by
    intro p hp
    simp only [lenMethod, List.nil_append, List.mem_cons, List.not_mem_nil, or_false] at hp
    subst hp
    exact store_types _ (by decide)
  ctx := nofun
  err := fun _ => nofun
  variadic := by decide
  dots := dots_of (by decide +kernel)
  plain := by decide

theorem store_vars : GoVars storeInputs where
  values := by
    intro k
    unfold storeInputs
    simp only
    split <;> nofun
  decorator := by
    intro s h
    simp [storeInputs] at h
  component := by
    intro s h
    have : s = g!"a-b" := by simpa [storeInputs, eq_comm] using h
    subst this
    show ∀ c ∈ g!"a-b", c ≠ '"' ∧ c ≠ '\\' ∧ c ≠ '\n'
    decide
  metric := by
    intro s h
    simp [storeInputs] at h
  span := by
    intro s h
    simp [storeInputs] at h

theorem ascii_lower (c : Char) (h : Go.letter c = true) : Go.letter (Uni.ascii.toLower c) = true := by
  show Go.letter c.toLower = true
  unfold Char.toLower
  split
  · rename_i hc
    have h1 : c.val + 32 ≥ 97 := by
      have h2 := hc.1; have h3 := hc.2
      simp only [ge_iff_le, UInt32.le_iff_toNat_le, UInt32.toNat_add] at *
      have : 'A'.val.toNat = 65 := rfl
      have : 'Z'.val.toNat = 90 := rfl
      have : (32 : UInt32).toNat = 32 := rfl
      have : (97 : UInt32).toNat = 97 := rfl
      omega
    have h2 : c.val + 32 ≤ 122 := by
      have h2 := hc.1; have h3 := hc.2
      simp only [ge_iff_le, UInt32.le_iff_toNat_le, UInt32.toNat_add] at *
      have : 'A'.val.toNat = 65 := rfl
      have : 'Z'.val.toNat = 90 := rfl
      have : (32 : UInt32).toNat = 32 := rfl
      have : (122 : UInt32).toNat = 122 := rfl
      omega
    simp [Go.letter, Char.isAlpha, Char.isLower, h1, h2]
  · exact h

/-- The example meets the hypotheses. -/
theorem store_good : GoInputs Uni.ascii storeInputs where
  lower := ascii_lower
  name := by decide +kernel
  type := store_types _ (by decide)
  typeName := ⟨_, _, rfl, by decide⟩
  typeQuotable := by unfold InQuotes; decide
  methods := by
    intro e he
    simp only [storeInputs, List.mem_cons, List.not_mem_nil, or_false] at he
    rcases he with rfl | rfl
    · exact ⟨rfl, len_good⟩
    · exact ⟨rfl, get_good⟩
  distinct := by decide
  vars := store_vars

end Gowrap.Props
