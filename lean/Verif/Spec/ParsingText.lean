import Verif.Model.ParsingText
import Verif.Spec.MainText
import Verif.Spec.LineCache
/-!
# What is said about a file that cannot be parsed
-/

namespace Selint
namespace Spec

/-- With `-v` every file is announced. -/
def announced (verbose : Bool) (f : NodeFlavor × Str) : Str :=
  if verbose = true then cs!"Parsing " ++ (if f.1 = .fcFile then cs!"fc file " else []) ++ f.2 ++ cs!"\n" else []

/-- The file is named: a te or if file that cannot be opened in an error with the reason, and one that cannot be parsed in a
finding F-001. -/
inductive NamesFile (x : Speaking) (src : Sources) (name : Str) : Str → Prop
  | unreadable (h : src.text name = none) : NamesFile x src name
      (Label.error.shown x.color ++ (cs!": Failed to open " ++ name ++ cs!": " ++ x.reason name ++ cs!"\n"))
  | unparseable {text : Str} (h : src.text name = some text) (line : Nat) (msg more : Str) : NamesFile x src name
      (formatFinding x.color ⟨name, line, ⟨'F', 1, msg⟩⟩ ++ more)

/-- What is said about a file that cannot be parsed: nothing about an fc file. -/
def Blames (x : Speaking) (src : Sources) (f : NodeFlavor × Str) (t : Str) : Prop :=
  (f.1 = .fcFile ∧ src.fcLines f.2 = none ∧ t = []) ∨ ((f.1 = .teFile ∨ f.1 = .ifFile) ∧ NamesFile x src f.2 t)

/-- No file has as many lines as an `unsigned int` can count. -/
def FewLines (src : Sources) : Prop :=
  ∀ name text ls, src.text name = some text → LinesOf text ls → ls.length + 1 < 2 ^ 32

/-- The files in the order in which they are parsed: interface files, then type enforcement files, then file contexts; of the
interface files those that are checked come first, of the te files those of the context. -/
def parsingOrder (s : Scan) : List (NodeFlavor × Str) :=
  (s.ifs ++ s.contextIf).map (.ifFile, ·) ++ (s.contextTe ++ s.te).map (.teFile, ·) ++ s.fc.map (.fcFile, ·)

end Spec
end Selint
