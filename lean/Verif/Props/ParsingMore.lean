import Verif.Props.ParsingText
import Verif.Props.Verbose
import Verif.Props.Colours
/-! # Parts of C104 and C108: what is printed while files are parsed -/

namespace Selint

open Spec

theorem parserText_painted (endName : Str) (expected : PlainFlavor) (mod : Str) (m : Maps) (before : Location)
    (filename text : Str) : PaintedRes (parserText true endName expected mod m before filename text)
      (parserText false endName expected mod m before filename text) := by
  unfold parserText
  split
  · exact Painted.nil
  · dsimp only
    split
    · trivial
    · exact C104_output _ _ _ _
    · exact Painted.nil

theorem PaintedRes.skip {α : Type} (x : Res α) {f g : α → Res Str} (hf : ∀ a, PaintedRes (f a) (g a)) :
    PaintedRes (x >>= f) (x >>= g) := by
  cases x with
  | ub => trivial
  | ok a => exact hf a

theorem policyText_painted (x : Speaking) (src : Sources) (fl : PlainFlavor) (n : Str) (m : Maps) :
    PaintedRes (policyText { x with color := true } src fl n m) (policyText { x with color := false } src fl n m) := by
  unfold policyText
  dsimp only
  refine PaintedRes.skip _ fun mod => ?_
  cases src.text n with
  | none =>
    simp only [List.append_assoc]
    have h := painted_label colour_error cs!"Error" (cs!": Failed to open " ++ (n ++ (cs!": " ++ (x.reason n ++ cs!"\n"))))
    simp only [List.append_assoc] at h
    exact (Painted.same _).append h
  | some text => exact (parserText_painted _ _ _ _ _ _ _).bind fun a b h => (Painted.same _).append h

theorem fileText_painted (x : Speaking) (src : Sources) (fl : NodeFlavor) (n : Str) (m : Maps) :
    PaintedRes (fileText { x with color := true } src fl n m) (fileText { x with color := false } src fl n m) := by
  unfold fileText
  split
  · exact policyText_painted x src _ n m
  · exact policyText_painted x src _ n m
  · exact Painted.same _
  · exact Painted.nil

theorem logText_painted (x : Speaking) (src : Sources) (suppress : Bool) (config : ConfigCheckData) :
    ∀ (log : List Event) (m : Maps), PaintedRes (logText { x with color := true } src suppress config log m)
      (logText { x with color := false } src suppress config log m)
  | [], _ => Painted.nil
  | .parse _ n fl _ :: rest, m =>
    (fileText_painted x src fl n m).bind fun _ _ h => (logText_painted x src suppress config rest _).bind fun _ _ k => h.append k
  | .mark _ :: rest, _ => logText_painted x src suppress config rest _
  | .check .. :: rest, m => logText_painted x src suppress config rest m
  | .cleanup :: rest, m => logText_painted x src suppress config rest m

/-- **C104 (parsing).** Colours change nothing else in what is printed while the files of a run are parsed; this is what
C107_colours asks of it. -/
theorem C104_parsing (x : Speaking) (w : Machine) (st : Settings) (s : Scan) :
    PaintedRes (analysisText { x with color := true } w st s) (analysisText { x with color := false } w st s) := by
  unfold analysisText
  split
  · exact Painted.nil
  · exact PaintedRes.skip _ fun r => logText_painted x _ _ _ _ _

theorem policyText_more (x : Speaking) (src : Sources) (fl : PlainFlavor) (n : Str) (m : Maps) :
    MoreRes (policyText x src fl n m) (policyText { x with verbose := true } src fl n m) := by
  unfold policyText
  dsimp only
  refine MoreRes.skip _ fun mod => ?_
  cases src.text n with
  | none => exact (ifVerbose_more _ _).append (List.Sublist.refl _)
  | some text => exact MoreRes.each _ fun a => (ifVerbose_more _ _).append (List.Sublist.refl _)

theorem fileText_more (x : Speaking) (src : Sources) (fl : NodeFlavor) (n : Str) (m : Maps) :
    MoreRes (fileText x src fl n m) (fileText { x with verbose := true } src fl n m) := by
  unfold fileText
  split
  · exact policyText_more x src _ n m
  · exact policyText_more x src _ n m
  · exact ifVerbose_more _ _
  · exact List.Sublist.refl _

theorem logText_more (x : Speaking) (src : Sources) (suppress : Bool) (config : ConfigCheckData) :
    ∀ (log : List Event) (m : Maps), MoreRes (logText x src suppress config log m)
      (logText { x with verbose := true } src suppress config log m)
  | [], _ => List.Sublist.refl _
  | .parse _ n fl _ :: rest, m =>
    MoreRes.bind (fileText_more x src fl n m) fun _ _ h =>
      MoreRes.bind (logText_more x src suppress config rest _) fun _ _ k => h.append k
  | .mark _ :: rest, _ => logText_more x src suppress config rest _
  | .check .. :: rest, m => logText_more x src suppress config rest m
  | .cleanup :: rest, m => logText_more x src suppress config rest m

/-- **C108 (parsing).** With `-v` all that is printed while the files of a run are parsed without it is printed as well; this is
what C108_text asks of it. -/
theorem C108_parsing (x : Speaking) (w : Machine) (st : Settings) (s : Scan) :
    MoreRes (analysisText x w st s) (analysisText { x with verbose := true } w st.loud s) := by
  show MoreRes (analysisText x w st s) (analysisText { x with verbose := true } w st s)
  unfold analysisText
  split
  · exact List.Sublist.refl _
  · exact MoreRes.skip _ fun r => logText_more x _ _ _ _ _

/-- With the file of the example in Props/ParsingText.lean. -/
example (m : Maps) : policyText (exSpeaking false) (brokenMachine.sources []) .teFile cs!"mod/b.te" m =
      .ok cs!"Error: Failed to open mod/b.te: No such file\n" ∧
    policyText (exSpeaking true) (brokenMachine.sources []) .teFile cs!"mod/b.te" m =
      .ok cs!"Parsing mod/b.te\nError: Failed to open mod/b.te: No such file\n" := by
  constructor <;> rfl

end Selint
