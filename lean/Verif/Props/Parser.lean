import Verif.Lemmas.FileComplete
import Verif.Lemmas.PlainExec
import Verif.Props.Source
/-! # C68: the parse of a text is determined by the text -/

namespace Selint
open Spec

/-- **C68 (sound).** What the parser returns is a derivation of the tokens in the grammar of
parse.y. -/
theorem C68_sound {ts : Located} {f : SourceFile} (h : pFile ts = some f) : f.At ts := pFile_sound h

/-- **C68 (complete).** The parser finds each derivation, up to the grouping of conditions. -/
theorem C68_complete {ts : Located} {f : SourceFile} (h : f.At ts) :
    ∃ g, pFile ts = some g ∧ g.plain = f.plain := pFile_complete h

/-- **C68 (syntax errors).** The parser rejects the tokens only if they have no derivation. -/
theorem C68_rejected {ts : Located} : pFile ts = none ↔ ¬∃ f : SourceFile, f.At ts := by
  constructor
  · rintro h ⟨f, hf⟩
    obtain ⟨g, hg, -⟩ := C68_complete hf
    rw [h] at hg; cases hg
  · intro h
    cases e : pFile ts with
    | none => rfl
    | some f => exact absurd ⟨f, C68_sound e⟩ h

/-- **C68 (unambiguous).** Tokens have at most one derivation, up to the grouping of conditions. -/
theorem C68_unambiguous {ts : Located} {f g : SourceFile} (hf : f.At ts) (hg : g.At ts) : f.plain = g.plain := by
  obtain ⟨f', h1, h2⟩ := C68_complete hf
  obtain ⟨g', h3, h4⟩ := C68_complete hg
  rw [h1] at h3; cases h3
  rw [← h2, ← h4]

/-- The same for texts. -/
theorem C68_unambiguous_text {s : Str} {f g : SourceFile} (hf : ParsesTo s f) (hg : ParsesTo s g) :
    f.plain = g.plain := by
  obtain ⟨ts, h1, h2⟩ := hf
  obtain ⟨ts', h3, h4⟩ := hg
  rw [h1] at h3; cases h3
  exact C68_unambiguous h2 h4

/-- **C68.** Two derivations of the same text have the same effect: the tree, the tables, the
module name and whether the file is accepted depend on the text only. -/
theorem C68_deterministic {s : Str} {f g : SourceFile} (hf : ParsesTo s f) (hg : ParsesTo s g)
    (expected : PlainFlavor) (mod : Str) (m : Maps) :
    f.exec expected mod m = g.exec expected mod m := by
  rw [← f.plain_exec, C68_unambiguous_text hf hg, g.plain_exec]

/-- The tree and the tables are what the derivation found by the parser yields. -/
theorem C68_text {s : Str} {f : SourceFile} (h : ParsesTo s f) :
    ∃ ts g, lexFile s = some ts ∧ pFile ts = some g ∧
      ∀ expected mod m, g.exec expected mod m = f.exec expected mod m := by
  obtain ⟨ts, h1, h2⟩ := h
  obtain ⟨g, h3, -⟩ := C68_complete h2
  exact ⟨ts, g, h1, h3, fun expected mod m =>
    C68_deterministic ⟨ts, h1, C68_sound h3⟩ ⟨ts, h1, h2⟩ expected mod m⟩

/-! ### C68 is about something -/

/-- A te file with a condition. -/
def groupingText : Str := cs!"module foo 1.0;\nif (a && b || c) {\n\tpermissive d;\n}\n"

/-- A derivation for each grouping of the condition. -/
def groupingFile (c : Condition) : SourceFile :=
  .te [] ⟨1, cs!"foo", false, false, cs!"1.0"⟩
    (.one (.bare (.boolean 2 none c (.one (.bare (.simple 3 (.permissive cs!"d")))))))

theorem grouping_parses {c : Condition} (h : c.tokens = [.string cs!"a", .p .and, .string cs!"b", .p .or,
    .string cs!"c"]) : ParsesTo groupingText (groupingFile c) := by
  refine ⟨(lexFile groupingText).getD [], by decide +kernel, ?_⟩
  simp only [groupingFile, SourceFile.At, Lines.At, Line.At, Stmt.At, h]
  generalize h : (lexFile groupingText).getD [] = ts
  refine ⟨ts.take 4, ts.drop 4, (List.take_append_drop ..).symm, ?_, (ts.drop 4).take 2, (ts.drop 6).take 7,
    (ts.drop 13).take 3, ts.drop 16, ?_, ?_, ?_, ?_, ?_⟩
  all_goals subst h
  all_goals first | exact ⟨by decide +kernel, by decide +kernel⟩ | decide +kernel

/-- Without `plain` it would be false: the grammar groups `a && b || c` in two ways. -/
theorem C68_false_conditions :
    ∃ f g, f ≠ g ∧ ParsesTo groupingText f ∧ ParsesTo groupingText g :=
  ⟨groupingFile (.or (.and (.name cs!"a") (.name cs!"b")) (.name cs!"c")),
    groupingFile (.and (.name cs!"a") (.or (.name cs!"b") (.name cs!"c"))),
    (by intro h; cases h), grouping_parses rfl, grouping_parses rfl⟩

/-- A text with an unclosed block is rejected; so none of its tokens has a derivation. -/
example : (lexFile cs!"module foo 1.0;\noptional_policy(`\n\tpermissive d;\n").map (fun ts => (pFile ts).isNone) =
    some true := by decide +kernel

end Selint
