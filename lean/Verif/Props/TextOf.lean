import Verif.Props.Command
/-!
# Which templates the model executes (C81)

The model executes a template given as bytes by first reading the text.  It does so exactly for the encodings of texts; for all other bytes the
execution is left open.
-/

namespace Gowrap.Props

open Gowrap Gowrap.Spec

theorem textOf_some : ∀ (n : Nat) (b : Bytes) (t : Str), textOf n b = some t → b = utf8 t
  | 0, [], t, h => by cases h; rfl
  | n + 1, [], t, h => by cases h; rfl
  | 0, _ :: _, t, h => by cases h
  | n + 1, x :: xs, t, h => by
    rw [textOf] at h
    by_cases he : encodeRune (decodeRune (x :: xs)) = (x :: xs).take (encodeRune (decodeRune (x :: xs))).length
    · rw [if_pos he] at h
      cases hr : textOf n ((x :: xs).drop (encodeRune (decodeRune (x :: xs))).length) with
      | none => rw [hr] at h; cases h
      | some s =>
        rw [hr] at h
        cases h
        have ih := textOf_some n _ s hr
        have hsplit : x :: xs = encodeRune (decodeRune (x :: xs)) ++ utf8 s := by
          rw [← ih]
          conv => rhs; lhs; rw [he]
          exact (List.take_append_drop _ _).symm
        have hsc : Scalar (decodeRune (x :: xs)) := by
          rcases encodeRune_text (decodeRune (x :: xs)) with h1 | h1
          · exact h1.1
          · have hd := decode_utf8 h1.2 (utf8 s)
            rw [← hsplit] at hd
            exact absurd (hd ▸ .inr ⟨by omega, by omega⟩) h1.1
        have hv : (decodeRune (x :: xs)).isValidChar := by
          rcases hsc with h1 | ⟨h1, h2⟩
          · exact .inl h1
          · exact .inr ⟨by omega, by omega⟩
        have hc : (Char.ofNat (decodeRune (x :: xs))).toNat = decodeRune (x :: xs) := by
          unfold Char.ofNat
          rw [dif_pos hv]
          rfl
        rw [utf8_cons, hc]
        exact hsplit
    · rw [if_neg he] at h
      cases h

/-- **C81**: the bytes of a template are read as a text exactly when they are its UTF-8 encoding. -/
theorem C81_text_exact (b : Bytes) (t : Str) : textOf b.length b = some t ↔ Encodes t b :=
  ⟨fun h => encodes_iff.2 (textOf_some _ b t h), fun h => by
    rw [encodes_iff.1 h]
    exact textOf_utf8 t _ (Nat.le_refl _)⟩

/-- **C81**: nothing is claimed about the execution of a template that is not in UTF-8: what it writes is what the oracle says. -/
theorem C81_not_utf8 (w : World) (sched : Sched) (fuel : Nat) (s : Sys) {o : GenOptions} (h : ¬ ∃ t, Encodes t o.bodyTemplate) (ev : List Ev) :
    (w.sys sched fuel s).body ev o = s.body ev o := by
  have hb : ∀ g, w.body g o = none := fun g => by
    unfold World.body
    cases ht : textOf o.bodyTemplate.length o.bodyTemplate with
    | none => rfl
    | some t => exact absurd ⟨t, (C81_text_exact _ _).1 ht⟩ h
  show orElse (w.newGenerator sched fuel o) (fun g => w.body g o) (s.body ev o) = s.body ev o
  unfold orElse
  cases w.newGenerator sched fuel o with
  | ok g => simp only [hb]
  | _ => rfl

/-- `"é"` is two bytes. -/
example : Encodes g!"é" [0xC3, 0xA9] := (C81_text_exact _ _).1 (by decide +kernel)

/-- A continuation byte alone, a truncated character and a surrogate half are the encoding of no text. -/
example : ∀ b ∈ [[0xA9], [0x41, 0xC3], [0xED, 0xA0, 0x80]], ¬ ∃ t, Encodes t b := by
  intro b hb ⟨t, ht⟩
  have hall : ∀ b ∈ [[0xA9], [0x41, 0xC3], [0xED, 0xA0, 0x80]], textOf b.length b = none := by decide +kernel
  have hn := hall b hb
  rw [(C81_text_exact _ _).2 ht] at hn
  cases hn

end Gowrap.Props
