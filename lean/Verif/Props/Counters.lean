import Verif.Proofs.CheckedTop
import Verif.Proofs.Rerun
import Verif.Props.Samples
import Verif.Props.Robust

/-!
# Property C40: no counter overflows

`Obj.Checked.parse_objset` is the OBJ parser with machine arithmetic for every counter of
`obj::Parser`; `Machine.Stream` is the lexer and the line counter with machine arithmetic
and a flag that stays up once an addition did not fit. The largest value of the machine
type is a parameter. Both together are compared with the plain model, in which counters
are natural numbers.
-/

namespace Verif.Props

open Verif Verif.Spec

variable {F : Type} [FloatSem F] {cfg : Obj.Cfg} {input : Bytes}

/-- **C40** Even if no counter could exceed the number of bytes plus one, `obj::parse` would
have the same outcome: no addition of the parser, of the lexer or of the line counter needs a
larger value. -/
theorem C40_obj {limit : Nat} (hlimit : input.length + 1 ≤ limit) (hlen : input.length < 2 ^ 63) :
    let r := Obj.Checked.parse_objset (F := F) ⟨cfg, limit⟩ (input.length + 1) ⟨1, Machine.Stream.new limit input⟩
    r.1 = Obj.parse cfg input ∧ r.2.lexer.overflow = false ∧ r.2.line_number = r.2.lexer.line ∧
      r.2.line_number ≤ input.length + 1 := by
  have ht := length_tokens_le input
  obtain ⟨o, rest, hy⟩ := Obj.Checked.exists_run (F := F) cfg hlen
  have hp := Obj.parse_of_yields hy
  obtain ⟨line, e1, e2⟩ := hy.run 1
  rw [← (Obj.Checked.rel_objset (F := F) ⟨cfg, limit⟩ (N := input.length) hlimit (input.length + 1) ht).eq 1] at e2
  obtain ⟨h1, h2, h3, h4⟩ := Machine.run_machine hlimit
    (Obj.Checked.sim_parse_objset (F := F) (d := 0) (Machine.tracks_bisim _) ⟨cfg, limit⟩
      (Nat.le_refl (input.length + 1))) e1 e2
  have hn : nls (tokens input) ≤ (tokens input).length := List.count_le_length
  refine ⟨?_, h4, by rw [h2, h3], by rw [h2]; omega⟩
  rw [h1, hp]
  congr 1
  omega

/-- **C40** In particular, with `usize` of a 64-bit target no addition panics or wraps. -/
theorem C40_usize (hlen : input.length < 2 ^ 63) :
    let r := Obj.Checked.parse_objset (F := F) ⟨cfg, usizeMax⟩ (input.length + 1)
      ⟨1, Machine.Stream.new usizeMax input⟩
    r.1 = Obj.parse cfg input ∧ r.1 ≠ .panic .addOverflow ∧ r.2.lexer.overflow = false := by
  obtain ⟨h1, h2, -⟩ := C40_obj (F := F) (cfg := cfg) (limit := usizeMax)
    (by show _ ≤ 2 ^ 64 - 1; omega) hlen
  refine ⟨h1, ?_, h2⟩
  rw [h1]
  intro hc
  rcases C09_panic_sites_partial hlen hc with h | ⟨h, -⟩ <;> cases h

/-- **C40** The same for `mtl::parse`, whose parser has no counter but the line number. -/
theorem C40_mtl {limit : Nat} (hlimit : input.length + 1 ≤ limit) :
    let r := Mtl.parse_mtlset (F := F) (input.length + 1) ⟨1, Machine.Stream.new limit input⟩
    r.1 = Mtl.parse input ∧ r.2.lexer.overflow = false ∧ r.2.line_number = r.2.lexer.line ∧
      r.2.line_number ≤ input.length + 1 := by
  have ht := length_tokens_le input
  obtain ⟨o, rest, hy⟩ := Mtl.exists_run (F := F) input
  have hp := Mtl.parse_of_yields hy
  obtain ⟨line, e1, e2⟩ := hy.run 1
  obtain ⟨h1, h2, h3, h4⟩ := Machine.run_machine hlimit
    (Mtl.sim_parse_mtlset (F := F) (d := 0) (Machine.tracks_bisim _)
      (Nat.le_refl (input.length + 1))) e1 e2
  have hn : nls (tokens input) ≤ (tokens input).length := List.count_le_length
  refine ⟨?_, h4, by rw [h2, h3], by rw [h2]; omega⟩
  rw [h1, hp]
  congr 1
  omega

/-- The flag is not always down: a line counter that is full raises it. -/
example : (Machine.Stream.next ⟨7, PeekableLexer.new (Lexer.new nl), 7, false⟩).2.overflow = true := by
  decide +kernel

/-- The bound is needed: with counters up to 4 only, a file with five vertices panics. -/
example : (Obj.Checked.parse_objset (F := Bytes) ⟨debug, 4⟩ 100
    ⟨1, Machine.Stream.new 100 b!"v 0 0 0\nv 0 0 0\nv 0 0 0\nv 0 0 0\nv 0 0 0\np 1\n"⟩).1 =
      .panic .addOverflow := by
  decide +kernel

/-- The theorem on a file: the sample is parsed with machine arithmetic. -/
example : (Obj.Checked.parse_objset (F := Bytes) ⟨debug, sample.length + 1⟩ (sample.length + 1)
    ⟨1, Machine.Stream.new (sample.length + 1) sample⟩).1 = .ok sampleResult := by
  rw [(C40_obj (Nat.le_refl _) sample_length).1, sample_parses]

end Verif.Props
