import Verif.Model.SummaryText
import Verif.Model.ActionErrors
import Verif.Spec.Colours
import Verif.Lemmas.Parse
/-! # C104: colours change nothing but colours -/

namespace Selint

open Spec

theorem Spec.Painted.append {a b c d : Str} (h : Painted a b) (k : Painted c d) : Painted (a ++ c) (b ++ d) := by
  induction h with
  | nil => exact k
  | char x _ ih => exact .char x ih
  | stretch t hc _ ih =>
    have := Painted.stretch t hc ih
    simpa only [List.append_assoc] using this

theorem Spec.Painted.same : (s : Str) → Painted s s
  | [] => .nil
  | c :: s => .char c (Painted.same s)

theorem Spec.Painted.one {k : Str} (hk : IsColour k) (t : Str) : Painted (k ++ t ++ colorReset true) t := by
  have := Painted.stretch t hk Painted.nil
  rw [List.append_nil, List.append_nil] at this
  exact this

theorem colour_of (body : Str) (s : Str) (h : s = [escape, '['] ++ body ++ ['m']) (hb : body ≠ [])
    (hd : body.all (fun c => c.isDigit || c == ';') = true) : IsColour s := by
  refine ⟨body, h, hb, fun c hc => ?_⟩
  have := List.all_eq_true.1 hd c hc
  simpa using this

theorem colour_severity (c : Char) : IsColour (colorSeverity true c) := by
  unfold colorSeverity
  simp only [Bool.not_true, Bool.false_eq_true, if_false]
  split
  · exact colour_of cs!"31;1" _ (by decide) (by decide) (by decide)
  split
  · exact colour_of cs!"33;1" _ (by decide) (by decide) (by decide)
  split
  · exact colour_of cs!"35;1" _ (by decide) (by decide) (by decide)
  split
  · exact colour_of cs!"34;1" _ (by decide) (by decide) (by decide)
  · exact colour_of cs!"1" _ (by decide) (by decide) (by decide)

theorem colour_error : IsColour (colorError true) :=
  colour_of cs!"31;1" _ (by decide) (by decide) (by decide)

theorem colour_warning : IsColour (colorWarning true) :=
  colour_of cs!"33;1" _ (by decide) (by decide) (by decide)

theorem colour_ok : IsColour (colorOk true) :=
  colour_of cs!"32;1" _ (by decide) (by decide) (by decide)

/-- **C104 (findings).** -/
theorem C104_findings (f : Finding) : Painted (formatFinding true f) (formatFinding false f) := by
  have h : formatFinding false f = (f.filename ++ [':'] ++ padLeft ' ' (linePadding f.filename) (natToStr f.lineno)
      ++ cs!": ") ++ (['('] ++ [f.result.severity] ++ [')']) ++ (cs!": " ++ f.result.message ++ cs!" (" ++
      [f.result.severity] ++ ['-'] ++ padLeft '0' 3 (natToStr f.result.checkId) ++ cs!")\n") := by
    simp [formatFinding, colorSeverity, colorReset]
  have k : formatFinding true f = (f.filename ++ [':'] ++ padLeft ' ' (linePadding f.filename) (natToStr f.lineno)
      ++ cs!": ") ++ (colorSeverity true f.result.severity ++ (['('] ++ [f.result.severity] ++ [')']) ++
      colorReset true) ++ (cs!": " ++ f.result.message ++ cs!" (" ++
      [f.result.severity] ++ ['-'] ++ padLeft '0' 3 (natToStr f.result.checkId) ++ cs!")\n") := by
    simp [formatFinding]
  rw [h, k]
  exact ((Painted.same _).append (Painted.one (colour_severity _) _)).append (Painted.same _)

/-- **C104 (summary).** -/
theorem C104_summary {F : Type} (sorted : List (CheckNode F)) :
    Painted (summaryText true sorted) (summaryText false sorted) := by
  unfold summaryText
  have hl : ∀ l : List (Str × Nat), Painted (l.flatMap (countLine true)) (l.flatMap (countLine false)) := by
    intro l
    induction l with
    | nil => exact .nil
    | cons e l ih =>
      simp only [List.flatMap_cons]
      refine Painted.append ?_ ih
      have h : countLine false e = e.1 ++ (cs!": " ++ natToStr e.2 ++ cs!"\n") := by
        simp [countLine, colorSeverity, colorReset]
      have k : countLine true e = (colorSeverity true (e.1.headD '\x00') ++ e.1 ++ colorReset true) ++
          (cs!": " ++ natToStr e.2 ++ cs!"\n") := by simp [countLine]
      rw [h, k]
      exact (Painted.one (colour_severity _) _).append (Painted.same _)
  refine ((Painted.same _).append (hl _)).append ?_
  split
  · have h : colorOk false ++ cs!"(none)" ++ colorReset false ++ cs!"\n" = cs!"(none)" ++ cs!"\n" := by decide
    rw [h]
    exact (Painted.one colour_ok _).append (Painted.same _)
  · exact .nil

/-- What becomes of a line, with and without colours. -/
def PaintedLine : Printed → Printed → Prop
  | .whole t b i, .whole t' b' i' => Painted t t' ∧ b = b' ∧ i = i'
  | .stopped t, .stopped t' => Painted t t'
  | _, _ => False

theorem painted_printLine (first last : Nat) (s : Str) : ∀ pos before inside,
    PaintedLine (printLine true first last pos s before inside) (printLine false first last pos s before inside) := by
  induction s with
  | nil => intro pos b i; exact ⟨.nil, rfl, rfl⟩
  | cons c s ih =>
    intro pos b i
    unfold printLine
    split
    · have := ih (pos + 1) (if pos < first then b + 1 else b)
        (if pos < first then i else if pos < last then i + 1 else i)
      revert this
      generalize printLine true _ _ _ _ _ _ = p
      generalize printLine false _ _ _ _ _ _ = q
      cases p <;> cases q <;> simp only [PaintedLine, false_imp_iff]
      · rintro ⟨h, h2, h3⟩; exact ⟨(Painted.same _).append h, h2, h3⟩
      · intro h; exact (Painted.same _).append h
    · split
      · simp only [PaintedLine]
        have h : ∀ tail : Str, colorError false ++ cs!"!" ++ colorReset false ++ cs!"\n" ++ colorWarning false ++
            cs!"Warning" ++ colorReset false ++ tail = cs!"!" ++ cs!"\n" ++ cs!"Warning" ++ tail := by
          intro tail; simp [colorError, colorReset, colorWarning]
        have k : ∀ tail : Str, colorError true ++ cs!"!" ++ colorReset true ++ cs!"\n" ++ colorWarning true ++
            cs!"Warning" ++ colorReset true ++ tail = (colorError true ++ cs!"!" ++ colorReset true) ++ cs!"\n" ++
            (colorWarning true ++ cs!"Warning" ++ colorReset true) ++ tail := by
          intro tail; simp only [List.append_assoc]
        simp only [h, k]
        refine Painted.append (Painted.append (Painted.append (Painted.append ?_ (Painted.same _)) (Painted.same _))
          (Painted.same _)) (Painted.same _)
        exact (((Painted.one colour_error _).append (Painted.same _)).append
          (Painted.one colour_warning _)).append (Painted.same _)
      · have := ih (pos + 1) b i
        revert this
        generalize printLine true _ _ _ _ _ _ = p
        generalize printLine false _ _ _ _ _ _ = q
        cases p <;> cases q <;> simp only [PaintedLine, false_imp_iff]
        · rintro ⟨h, h2, h3⟩; exact ⟨.char c h, h2, h3⟩
        · intro h; exact .char c h

theorem painted_hint (top : Bool) (first last before inside : Nat) :
    Painted (hintLine true top first last before inside) (hintLine false top first last before inside) := by
  have h : ∀ a b m : Str, a ++ b ++ colorError false ++ m ++ colorReset false = a ++ b ++ m := by
    intro a b m; simp [colorError, colorReset]
  unfold hintLine
  generalize hm : (if last > first then List.replicate (last - first) '~' ++ List.replicate (3 * inside) '~' else []) = m
  generalize ht : (if top then cs!"^" else cs!"~") = t
  have k : ∀ a b c : Str, a ++ b ++ c ++ colorError false ++ t ++ m ++ colorReset false ++ cs!"\n" =
      (a ++ b ++ c) ++ (t ++ m) ++ cs!"\n" := by
    intro a b c; simp [colorError, colorReset]
  have l : ∀ a b c : Str, a ++ b ++ c ++ colorError true ++ t ++ m ++ colorReset true ++ cs!"\n" =
      (a ++ b ++ c) ++ (colorError true ++ (t ++ m) ++ colorReset true) ++ cs!"\n" := by
    intro a b c; simp only [List.append_assoc]
  rw [k, l]
  exact ((Painted.same _).append (Painted.one colour_error _)).append (Painted.same _)

theorem Spec.PaintedRes.map {x y : Res Str} (h : PaintedRes x y) {f g : Str → Str}
    (hf : ∀ a b, Painted a b → Painted (f a) (g b)) :
    PaintedRes (x >>= fun r => .ok (f r)) (y >>= fun r => .ok (g r)) := by
  cases x <;> cases y <;> first | exact hf _ _ h | exact h.elim | exact trivial

theorem Spec.PaintedRes.bind {x y : Res Str} (h : PaintedRes x y) {f g : Str → Res Str}
    (hf : ∀ a b, Painted a b → PaintedRes (f a) (g b)) : PaintedRes (x >>= f) (y >>= g) := by
  cases x <;> cases y <;> first | exact hf _ _ h | exact h.elim | exact trivial

theorem painted_showLines (c : LineCache) (loc : Location) (total : Nat) (shortened : Bool) : ∀ k,
    PaintedRes (showLines true c loc total shortened k) (showLines false c loc total shortened k)
  | 0 => Painted.nil
  | k + 1 => by
    have ih := painted_showLines c loc total shortened k
    unfold showLines
    split
    · rename_i l _
      have hp := painted_printLine
        (if k + 1 = total ∧ shortened = false then loc.firstColumn else 1 + leadingSpaces (trimRight l))
        (if k + 1 = 1 then loc.lastColumn else (trimRight l).length) (trimRight l) 0 0 0
      dsimp only
      revert hp
      generalize printLine true _ _ _ _ _ _ = p
      generalize printLine false _ _ _ _ _ _ = q
      cases p <;> cases q <;> simp only [PaintedLine, false_imp_iff]
      · rintro ⟨h, rfl, rfl⟩
        exact ih.map fun a b hab => (((Painted.same _).append h).append (painted_hint _ _ _ _ _)).append hab
      · intro h; exact (Painted.same _).append h
    · exact trivial

/-- **C104 (errors).** What `yyerror` prints: the tag, the lines and the markers. -/
theorem C104_errors (filename : Str) (c : LineCache) (loc : Location) (msg : Str) :
    PaintedRes (yyerror true filename c loc msg) (yyerror false filename c loc msg) := by
  unfold yyerror
  dsimp only
  split
  · exact (painted_showLines _ _ _ _ _).map fun a b h =>
      (((C104_findings _).append (Painted.same _)).append (Painted.same _)).append h
  · exact (painted_showLines _ _ _ _ _).map fun a b h => (C104_findings _).append h

/-- **C104 (syntax errors).** -/
theorem C104_syntax (filename endName : Str) (p : Lr.Locating) :
    PaintedRes (p.output true filename endName) (p.output false filename endName) := by
  unfold Lr.Locating.output
  split
  · split
    · refine (C104_errors _ _ _ _).bind fun a b h => ?_
      split
      · exact h
      · exact (C104_errors _ _ _ _).map fun _ _ k => h.append k
    · exact Painted.nil
  · exact Painted.nil

/-- **C104 (a file that is given up).** -/
theorem C104_output (before : Location) (filename endName : Str) (q : Lr.Asking) :
    PaintedRes (q.output before true filename endName) (q.output before false filename endName) := by
  unfold Lr.Asking.output
  split
  · split
    · split
      · exact Painted.nil
      · split
        · unfold Lr.Asking.failure
          dsimp only
          refine (C104_errors _ _ _ _).bind fun a b h => ?_
          split
          · exact h
          · exact (C104_errors _ _ _ _).map fun _ _ k => h.append k
        · exact Painted.nil
    · exact C104_syntax _ _ _
  · exact Painted.nil

theorem colourless_plain {t s : Str} (h : escape ∉ t) : colourless (t ++ s) = t ++ colourless s := by
  induction t with
  | nil => rfl
  | cons c t ih =>
    have hc : c ≠ escape := fun e => h (e ▸ List.mem_cons_self)
    simp only [List.cons_append, colourless, if_neg hc]
    rw [ih fun k => h (List.mem_cons_of_mem _ k)]

theorem colourless_colour {k s : Str} (h : IsColour k) : colourless (k ++ s) = colourless s := by
  obtain ⟨body, rfl, -, hb⟩ := h
  have go : ∀ body : Str, (∀ c ∈ body, c.isDigit ∨ c = ';') →
      afterColour (body ++ ['m'] ++ s) = colourless s := by
    intro body
    induction body with
    | nil => intro _; simp [afterColour]
    | cons c body ih =>
      intro hb
      have hc : c ≠ 'm' := by
        rintro rfl
        rcases hb 'm' List.mem_cons_self with h | h <;> revert h <;> decide
      simp only [List.cons_append, afterColour, if_neg hc]
      exact ih fun x hx => hb x (List.mem_cons_of_mem _ hx)
  have e : [escape, '['] ++ body ++ ['m'] ++ s = escape :: '[' :: (body ++ ['m'] ++ s) := by simp
  rw [e]
  simp only [colourless, if_true, afterColour]
  rw [if_neg (by decide)]
  exact go body hb

theorem usual_colour : IsColour backToUsual := colour_of cs!"0" _ (by decide) (by decide) (by decide)

/-- **C104 (getting the text back).** A program that removes the colours gets the text that is printed
without them, provided no escape character is part of that text. -/
theorem C104_removed {on off : Str} (h : Painted on off) (he : escape ∉ off) : colourless on = off := by
  induction h with
  | nil => rfl
  | char c _ ih =>
    have hc : c ≠ escape := fun e => he (e ▸ List.mem_cons_self)
    simp only [colourless, if_neg hc]
    rw [ih fun k => he (List.mem_cons_of_mem _ k)]
  | stretch t hc _ ih =>
    rw [List.append_assoc, List.append_assoc, colourless_colour hc,
      colourless_plain fun k => he (List.mem_append_left _ k), colourless_colour usual_colour,
      ih fun k => he (List.mem_append_right _ k)]


theorem not_escape_digit (n : Nat) : Nat.digitChar n ≠ escape := by
  have step : ∀ {p : Prop} [Decidable p] {a b : Char}, a ≠ escape → b ≠ escape → (if p then a else b) ≠ escape := by
    intro p _ a b ha hb
    split
    · exact ha
    · exact hb
  unfold Nat.digitChar
  iterate 16 refine step (by decide) ?_
  decide

theorem no_escape_core (b : Nat) : ∀ (fuel n : Nat) (ds : Str), escape ∉ ds → escape ∉ Nat.toDigitsCore b fuel n ds
  | 0, _, _, h => by simpa [Nat.toDigitsCore] using h
  | fuel + 1, n, ds, h => by
    have hc : escape ∉ Nat.digitChar (n % b) :: ds := by
      simp only [List.mem_cons, not_or]
      exact ⟨fun e => not_escape_digit _ e.symm, h⟩
    unfold Nat.toDigitsCore
    dsimp only
    split
    · exact hc
    · exact no_escape_core b fuel _ _ hc

theorem no_escape_digits (b n : Nat) : escape ∉ Nat.toDigits b n := no_escape_core b _ _ _ (by simp)

theorem no_escape_pad {c : Char} (hc : c ≠ escape) (w : Nat) {s : Str} (h : escape ∉ s) : escape ∉ padLeft c w s := by
  unfold padLeft
  simp only [List.mem_append, List.mem_replicate, not_or]
  exact ⟨fun k => hc k.2.symm, h⟩

theorem no_escape_finding {f : Finding} (hf : escape ∉ f.filename) (hm : escape ∉ f.result.message)
    (hs : f.result.severity ≠ escape) : escape ∉ formatFinding false f := by
  have h1 := no_escape_pad (c := ' ') (by decide) (linePadding f.filename) (no_escape_digits 10 f.lineno)
  have h2 := no_escape_pad (c := '0') (by decide) 3 (no_escape_digits 10 f.result.checkId)
  have e : ∀ c ∈ cs!": ()\n-", escape ≠ c := by decide
  simp only [List.mem_cons, List.not_mem_nil, or_false, forall_eq_or_imp, forall_eq] at e
  simp only [formatFinding, colorSeverity, colorReset, natToStr, List.mem_append, not_or, List.mem_cons,
    List.not_mem_nil, Bool.not_false, if_true, Bool.false_eq_true, if_false, not_false_eq_true, and_true]
  simp_all [Ne.symm]

/-- What is printed of a line. -/
def shown : Printed → Str
  | .whole t _ _ => t
  | .stopped t => t

theorem no_escape_printLine (first last : Nat) (s : Str) : ∀ pos before inside,
    escape ∉ shown (printLine false first last pos s before inside) := by
  induction s with
  | nil => intro pos b i; simp [printLine, shown]
  | cons c s ih =>
    intro pos b i
    unfold printLine
    split
    · have := ih (pos + 1) (if pos < first then b + 1 else b)
        (if pos < first then i else if pos < last then i + 1 else i)
      have hb : escape ∉ cs!"    " := by decide
      revert this
      generalize printLine false _ _ _ _ _ _ = q
      cases q <;> simp only [shown, List.mem_append, not_or] <;> exact fun this => ⟨hb, this⟩
    · split
      · have h1 := no_escape_digits 10 (pos + 1)
        have h2 : escape ∉ hexOfChar c := no_escape_pad (by decide) _ (no_escape_digits _ _)
        have h3 : escape ∉ cs!": Line in question contains unprintable character at position " := by decide
        have h4 : escape ∉ cs!"!" ++ cs!"\n" ++ cs!"Warning" := by decide
        have h5 : escape ∉ cs!": 0x" := by decide
        simp only [List.mem_append, not_or] at h4
        simp only [shown, colorError, colorReset, colorWarning, Bool.false_eq_true, if_false, List.mem_append, not_or,
          natToStr, List.not_mem_nil, not_false_eq_true]
        simp only [h1, h2, h3, h4, h5, not_false_eq_true, and_self]
      · rename_i hc
        have hp : escape ≠ c := by
          rintro rfl
          exact hc (by decide)
        have := ih (pos + 1) b i
        revert this
        generalize printLine false _ _ _ _ _ _ = q
        cases q <;> simp only [shown, List.mem_cons, not_or] <;> exact fun this => ⟨hp, this⟩

theorem no_escape_replicate {c : Char} (hc : c ≠ escape) (n : Nat) : escape ∉ List.replicate n c := by
  simp only [List.mem_replicate, not_and]
  exact fun _ k => hc k.symm

theorem no_escape_hint (top : Bool) (first last before inside : Nat) :
    escape ∉ hintLine false top first last before inside := by
  have h1 : escape ∉ cs!"\n      | " := by decide
  have h2 : escape ∉ cs!"\n" := by decide
  have h3 : escape ∉ (if top then cs!"^" else cs!"~") := by cases top <;> decide
  have h4 := fun n => no_escape_replicate (c := ' ') (by decide) n
  have h5 := fun n => no_escape_replicate (c := '~') (by decide) n
  have h6 : escape ∉ (if last > first then List.replicate (last - first) '~' ++ List.replicate (3 * inside) '~' else []) := by
    split
    · simp only [List.mem_append, h5, or_self, not_false_eq_true]
    · simp
  simp only [hintLine, colorError, colorReset, Bool.false_eq_true, if_false, List.append_nil, List.mem_append, not_or]
  simp only [h1, h2, h3, h4, h6, not_false_eq_true, and_self]

theorem no_escape_showLines (c : LineCache) (loc : Location) (total : Nat) (shortened : Bool) : ∀ k {t : Str},
    showLines false c loc total shortened k = .ok t → escape ∉ t
  | 0, t, h => by
    simp only [showLines, Res.ok.injEq] at h
    subst h; simp
  | k + 1, t, h => by
    unfold showLines at h
    split at h
    · rename_i l _
      dsimp only at h
      have hp := no_escape_printLine
        (if k + 1 = total ∧ shortened = false then loc.firstColumn else 1 + leadingSpaces (trimRight l))
        (if k + 1 = 1 then loc.lastColumn else (trimRight l).length) (trimRight l) 0 0 0
      have h1 := no_escape_pad (c := ' ') (by decide) 5 (no_escape_digits 10 (usub loc.lastLine k))
      have h2 : escape ∉ cs!" |" := by decide
      have h3 : escape ∉ (if trimRight l = [] then [] else cs!" ") := by split <;> decide
      split at h
      · rename_i heq
        rw [heq] at hp
        simp only [Res.ok.injEq] at h
        subst h
        simp only [List.mem_append, not_or, natToStr]
        exact ⟨⟨⟨h1, h2⟩, h3⟩, hp⟩
      · rename_i heq
        rw [heq] at hp
        obtain ⟨rest, hr, h⟩ := Res.bind_eq_ok h
        have ih := no_escape_showLines c loc total shortened k hr
        simp only [Res.ok.injEq] at h
        subst h
        simp only [List.mem_append, not_or, natToStr]
        exact ⟨⟨⟨⟨⟨h1, h2⟩, h3⟩, hp⟩, no_escape_hint _ _ _ _ _⟩, ih⟩
    · cases h

/-- **C104 (nothing is passed on).** Without colours `yyerror` prints no escape character, whatever the
lines of the file contain, unless there is one in the name of the file or in the message. -/
theorem C104_plain {filename : Str} {c : LineCache} {loc : Location} {msg t : Str} (hf : escape ∉ filename)
    (hm : escape ∉ msg) (h : yyerror false filename c loc msg = .ok t) : escape ∉ t := by
  have h1 := no_escape_finding (f := ⟨filename, loc.firstLine, ⟨'F', 1, msg⟩⟩) hf hm (show 'F' ≠ escape by decide)
  have h2 := no_escape_pad (c := ' ') (by decide) 5 (no_escape_digits 10 (usub loc.lastLine linesToCache))
  have h3 : escape ∉ cs!" |  ...  [truncated]\n" := by decide
  unfold yyerror at h
  dsimp only at h
  split at h <;> obtain ⟨rest, hr, h⟩ := Res.bind_eq_ok h <;>
    have h4 := no_escape_showLines _ _ _ _ _ hr <;> simp only [Res.ok.injEq] at h <;> subst h <;>
    simp only [List.mem_append, not_or, natToStr]
  · exact ⟨⟨⟨h1, h2⟩, h3⟩, h4⟩
  · exact ⟨h1, h4⟩

/-- **C104 (both together).** What is printed in colour for a syntax error, with the colours removed, is
what is printed without them. -/
theorem C104_same {filename : Str} {c : LineCache} {loc : Location} {msg on : Str} (hf : escape ∉ filename)
    (hm : escape ∉ msg) (h : yyerror true filename c loc msg = .ok on) :
    yyerror false filename c loc msg = .ok (colourless on) := by
  have hp := C104_errors filename c loc msg
  rw [h] at hp
  cases k : yyerror false filename c loc msg with
  | ub => rw [k] at hp; exact hp.elim
  | ok off =>
    rw [k] at hp
    rw [C104_removed hp (C104_plain hf hm k)]

/-- A line with an escape character in it: the character is not printed. -/
example : yyerror false cs!"a.te" ⟨[none, some cs!"al\x1blow;\n", none, none, none], 1, 0, 0⟩ ⟨3, 1, 3, 4⟩ cs!"bad" =
    .ok cs!"a.te:                 3: (F): bad (F-001)\n    3 | al!\nWarning: Line in question contains unprintable character at position 3: 0x1b\n" := by
  decide +kernel

example : yyerror true cs!"a.te" ⟨[none, some cs!"allow;\n", none, none, none], 1, 0, 0⟩ ⟨3, 1, 3, 4⟩ cs!"bad" =
    .ok cs!"a.te:                 3: \x1b[1m(F)\x1b[0m: bad (F-001)\n    3 | allow;\n      | \x1b[31;1m^~~~\x1b[0m\n" := by
  decide +kernel

example : colourless cs!"\x1b[31;1m^~~~\x1b[0m\n" = cs!"^~~~\n" := by decide

example : summaryText (F := Unit) true [] = cs!"Found the following issue counts:\n\x1b[32;1m(none)\x1b[0m\n" := by
  decide

end Selint
