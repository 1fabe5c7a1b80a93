import Verif.Lemmas.LineCache
import Verif.Props.Lex
/-!
# C84: the lines kept for error messages, and what a syntax error shows

The lines of a file, what it means to keep the latest of them and the picture of a line with a
marker are defined in `Spec/LineCache.lean`.
-/

namespace Selint
open Spec

/-! ## Handing out lines -/

theorem Fed.feeds {ls : List Str} {c c' : LineCache} {file file' got : Str} (h : Feeds c file got c' file') :
    ∀ {n m : Nat} {given : Str}, Fed ls n m given c file → ∃ n' m', Fed ls n' m' (given ++ got) c' file' := by
  induction h with
  | none => intro n m given h; exact ⟨n, m, by simpa using h⟩
  | call hr h _ ih =>
    intro n m given hf
    obtain ⟨got', c', file', n', m', e, hf', _⟩ := hf.input hr
    rw [h] at e
    cases e
    obtain ⟨n'', m'', h''⟩ := ih hf'
    exact ⟨n'', m'', by rw [← List.append_assoc]; exact h''⟩

/-- **C84 (reading).** However the scanner asks for characters, with room for one or for
thousands: no call reads a line that is not there or beyond its end; what has been handed out is
the beginning of the file; nothing is handed out exactly when everything has been; and of the
lines read so far (and the end, whenever it was met, which counts as an empty line) the latest
five are kept. -/
theorem C84_feed {text got file : Str} {c : LineCache} {ls : List Str} (hls : LinesOf text ls)
    (h : Feeds .fresh text got c file) {room : Nat} (hr : 0 < room) :
    ∃ more c' file', yyInput room c file = .ok (more, c', file') ∧
      got ++ more ++ pending c' ++ file' = text ∧ more.length ≤ room ∧ (more = [] ↔ got = text) ∧
      ∃ n m, n ≤ ls.length ∧ (0 < m → n = ls.length) ∧ LinesOf file' (ls.drop n) ∧
        KeepsLines c' (ls.take n ++ List.replicate m []) := by
  obtain ⟨n, m, hf⟩ := Fed.feeds h (Fed.start hls)
  rw [List.nil_append] at hf
  obtain ⟨more, c', file', n', m', e, hf', hm, he, _⟩ := hf.input hr
  refine ⟨more, c', file', e, ?_, ?_, ⟨?_, ?_⟩, n', m', hf'.bound, hf'.ended, hf'.lines, hf'.keeps⟩
  · rw [hf'.given, hls.flatten]
  · rw [hm, List.length_take]; omega
  · intro h0; rw [(he h0).1, hls.flatten]
  · intro h0
    have := hf'.given
    rw [hls.flatten, h0] at this
    have := congrArg List.length this
    simp only [List.length_append] at this
    exact List.eq_nil_of_length_eq_zero (by omega)

/-- Two calls with room for two characters. -/
example : ∃ c, Feeds .fresh cs!"abc\nd" cs!"abc\n" c cs!"d" ∧ LinesOf cs!"abc\nd" [cs!"abc\n", cs!"d"] :=
  ⟨_, .call (room := 2) (got := cs!"ab") (more := cs!"c\n") (by decide) rfl
      (.call (room := 2) (got := cs!"c\n") (more := []) (by decide) rfl .none),
    .line (l := cs!"abc") (by decide) (.last (by decide) (by decide))⟩

/-! ## Scanning -/

/-- Every text has its lines. -/
theorem C84_lines (text : Str) : ∃ ls, LinesOf text ls := linesOf_exists _ text (Nat.le_refl _)

/-- **C84 (scanning).** Reading line by line gives the tokens of the whole text: no token depends
on the lines after its own. When a token is returned, exactly the lines up to its own have been
read and the latest five of them are kept; its location is the line on which it stands and the
columns of its characters, counted from 0 on the first line and from 1 on all others. At the end
of the file an empty line follows in the lines kept. -/
theorem C84_scan {text : Str} {ls : List Str} (hls : LinesOf text ls) (before : Location) :
    ∃ ts loc fin, scanText text before = some (ts, loc, fin) ∧
      lexFile text = some (ts.map fun x => (x.1.firstLine, x.2.1)) ∧
      (∀ x ∈ ts, ∃ number pre own post, Stands ls number pre own post x.1 x.2.1 x.2.2) ∧
      EndAt ls before loc ∧ KeepsLines fin (ls ++ [[]]) := by
  obtain ⟨ts, loc, fin, h1, h2, h3, h4, h5⟩ := scanLines_spec (start := before) (2 * text.length + 1) 0 [] .fresh [] text
    ⟨1, 0⟩ before (Fed.start hls) (by simp [pending, LineCache.fresh, linesToCache]) .start (fun _ => rfl) (by simp)
  obtain ⟨ts', e1, _, e3⟩ := C48_total text
  refine ⟨ts, loc, fin, h1, ?_, h3, h4, h5⟩
  rw [e1, e3 _ h2]

/-- Two lines, the second without newline. -/
example : (scanText cs!"a {\n\tb" ⟨0, 0, 0, 0⟩).map (fun r => (r.1.map fun x => (x.1, x.2.1), r.2.1)) =
    some ([(⟨1, 0, 1, 0⟩, .string cs!"a"), (⟨1, 2, 1, 2⟩, .p .openCurly), (⟨2, 2, 2, 2⟩, .string cs!"b")],
      ⟨2, 2, 2, 2⟩) := by decide +kernel

/-! ## What is shown -/

/-- **C84 (what is shown).** A location that covers the lines `first` to `last`: after the message
come its last five lines, or all of them if they are no more, each with its number, tabs as four
blanks, and below it a marker; if there are more than five a line tells that some are missing. The
texts are those of the latest lines *read*. -/
theorem C84_shown {color : Bool} {filename msg : Str} {c : LineCache} {seen : List Str} {loc : Location}
    (hc : KeepsLines c seen) (h1 : 1 ≤ loc.firstLine) (h2 : loc.firstLine ≤ loc.lastLine) (hl : loc.lastLine < 2 ^ 32)
    (hsl : loc.lastLine ≤ seen.length)
    (hs : ∀ i, loc.firstLine ≤ i → loc.lastLine < i + 5 → i ≤ loc.lastLine →
      Showable (shownLine seen loc.lastLine i))
    (hf : 1 ≤ loc.firstColumn ∧ (shownLine seen loc.lastLine loc.firstLine)[loc.firstColumn - 1]? ≠ some '\t') :
    yyerror color filename c loc msg = .ok (formatFinding color ⟨filename, loc.firstLine, ⟨'F', 1, msg⟩⟩ ++
      (if loc.lastLine - loc.firstLine < 5 then
        pictures color loc (shownLine seen loc.lastLine) '^' (List.range' loc.firstLine (loc.lastLine + 1 - loc.firstLine))
      else
        padLeft ' ' 5 (natToStr (loc.lastLine - 5)) ++ cs!" |  ...  [truncated]\n" ++
        pictures color loc (shownLine seen loc.lastLine) '^' (List.range' (loc.lastLine + 1 - 5) 5))) :=
  yyerror_eq hc h1 h2 hl hsl hs hf

/-- **C84 (the right lines).** If nothing has been read beyond the last line of the location, the
text shown as line `i` is that of line `i`. -/
theorem C84_right {ls : List Str} {last i : Nat} {l : Str} (hl : last ≤ ls.length) (h1 : 1 ≤ i) (h2 : i ≤ last)
    (h : ls[i - 1]? = some l) : shownLine (ls.take last) last i = trimRight l := by
  unfold shownLine
  rw [List.getD_eq_getElem?_getD, List.length_take, Nat.min_eq_left hl,
    show i + last - (last + 1) = i - 1 by omega, List.getElem?_take_of_lt (by omega), h]
  rfl

/-- **C84 (the wrong lines).** If `d` more lines have been read, the text shown as line `i` is that
of line `i + d`. -/
theorem C84_ahead {ls : List Str} {last i d : Nat} {l : Str} (hl : last + d ≤ ls.length) (h1 : 1 ≤ i) (h2 : i ≤ last)
    (h : ls[i + d - 1]? = some l) : shownLine (ls.take (last + d)) last i = trimRight l := by
  unfold shownLine
  rw [List.getD_eq_getElem?_getD, List.length_take, Nat.min_eq_left hl,
    show i + (last + d) - (last + 1) = i + d - 1 by omega, List.getElem?_take_of_lt (by omega), h]
  rfl

/-- Three lines have been read; a location on lines 1 and 2 is shown with the texts of lines 2
and 3. -/
example : ∃ c, KeepsLines c [cs!"class x\n", cs!"inherits y\n", cs!"type z;\n"] ∧
    yyerror false cs!"a.te" c ⟨1, 1, 2, 10⟩ cs!"m" = .ok (
      formatFinding false ⟨cs!"a.te", 1, ⟨'F', 1, cs!"m"⟩⟩ ++
      cs!"    1 | inherits y\n      | ^~~~~~~~~~\n    2 | type z;\n      | ~~~~~~~~~~\n") :=
  ⟨_, ((KeepsLines.fresh.push cs!"class x\n" 0 0).push cs!"inherits y\n" 0 0).push cs!"type z;\n" 0 0, by decide +kernel⟩

/-- **C84 (one token).** A syntax error at a token that does not begin with a form feed or the like,
on any line but the first: its own line is shown, and the marker stands exactly below its
characters. -/
theorem C84_token {color : Bool} {filename msg : Str} {ls : List Str} {number : Nat} {pre own post : Str}
    {loc : Location} {t : Token} {c : LineCache} (h : Stands ls number pre own post loc t c) (hn : number < 2 ^ 32)
    (hv : ∀ x, own.head? = some x → isSpaceC x = false) (hs : Showable (trimRight (pre ++ own ++ post)))
    (h1 : number ≠ 1) :
    yyerror color filename c loc msg = .ok (formatFinding color ⟨filename, number, ⟨'F', 1, msg⟩⟩ ++
      marked color '^' number (trimRight (pre ++ own ++ post)) (pre.length + 1) (pre.length + own.length)) := by
  obtain ⟨⟨hp, hl⟩, ⟨hne, _⟩, rfl, hk⟩ := h
  have hlast : (ls.take number).getLast? = some (pre ++ own ++ post) := by
    have hlt : number - 1 < ls.length := by
      rcases Nat.lt_or_ge (number - 1) ls.length with h | h
      · exact h
      · rw [List.getElem?_eq_none h] at hl; cases hl
    rw [List.getLast?_eq_getElem?, List.length_take, Nat.min_eq_left (by omega), List.getElem?_take_of_lt (by omega), hl]
  rw [yyerror_single hk hlast hn, printLine_whole hs]
  have ho : origin number = 1 := if_neg h1
  dsimp only
  rw [ho, Nat.zero_add, Nat.zero_add, Nat.sub_zero, Nat.sub_zero, hintLine_eq (by omega), marked, picture]
  · rw [show 1 + pre.length - 1 = pre.length by omega, show pre.length + 1 - 1 = pre.length by omega,
      show 1 + pre.length + own.length - 1 = pre.length + own.length by omega]
    simp [List.append_assoc]
  · cases own with
    | nil => exact absurd rfl hne
    | cons x own =>
      have hx := hv x rfl
      rw [List.append_assoc, List.cons_append, trimRight_keeps hx, show 1 + pre.length - 1 = pre.length by omega]
      rw [List.getElem?_append_right (Nat.le_refl _), Nat.sub_self]
      rintro ⟨⟩
      exact absurd hx (by decide)

/-- **C84 (the first line).** On the first line the marker is as wide, but begins one column too
far to the left, unless the token has nothing but tabs before it. -/
theorem C84_first {color : Bool} {filename msg : Str} {ls : List Str} {pre own post : Str}
    {loc : Location} {t : Token} {c : LineCache} (h : Stands ls 1 pre own post loc t c)
    (hv : ∀ x, own.head? = some x → isSpaceC x = false) (ht : own.getLast? ≠ some '\t')
    (hs : Showable (trimRight (pre ++ own ++ post))) :
    yyerror color filename c loc msg = .ok (formatFinding color ⟨filename, 1, ⟨'F', 1, msg⟩⟩ ++
      picture color '^' 1 (trimRight (pre ++ own ++ post))
        (column (trimRight (pre ++ own ++ post)) pre.length - (if ∀ x ∈ pre, x = '\t' then 0 else 1))
        (column (trimRight (pre ++ own ++ post)) (pre.length + own.length) -
          column (trimRight (pre ++ own ++ post)) pre.length)) := by
  obtain ⟨⟨hp, hl⟩, ⟨hne, _⟩, rfl, hk⟩ := h
  have hlast : (ls.take 1).getLast? = some (pre ++ own ++ post) := by
    have hlt : 1 - 1 < ls.length := by
      rcases Nat.lt_or_ge (1 - 1) ls.length with h | h
      · exact h
      · rw [List.getElem?_eq_none h] at hl; cases hl
    rw [List.getLast?_eq_getElem?, List.length_take, Nat.min_eq_left (by omega), List.getElem?_take_of_lt (by omega), hl]
  rw [yyerror_single hk hlast (by decide), printLine_whole hs]
  have ho : origin 1 = 0 := rfl
  have hlen : 0 < own.length := List.length_pos_iff.2 hne
  dsimp only
  have hpre : trimRight (pre ++ own ++ post) <+: pre ++ own ++ post := trimRight_prefix _
  have hget : ∀ k : Nat, (trimRight (pre ++ own ++ post))[k]? = some '\t' → (pre ++ own ++ post)[k]? = some '\t' := by
    intro k hk
    obtain ⟨s, hs⟩ := hpre
    generalize pre ++ own ++ post = w at *
    rw [← hs, List.getElem?_append_left]
    · exact hk
    · exact (List.getElem?_eq_some_iff.1 hk).1
  rw [ho, Nat.zero_add, Nat.zero_add, Nat.zero_add, Nat.sub_zero, Nat.sub_zero, hintLine_zero hlen, picture]
  · have hall : (tabs ((trimRight (pre ++ own ++ post)).take pre.length) = pre.length) ↔ ∀ x ∈ pre, x = '\t' := by
      cases own with
      | nil => exact absurd rfl hne
      | cons x own =>
        rw [List.append_assoc, List.cons_append, trimRight_keeps (hv x rfl), List.take_left]
        unfold tabs
        rw [List.count_eq_length]
        exact ⟨fun h x hx => (h x hx).symm, fun h x hx => (h x hx).symm⟩
    by_cases hb : ∀ x ∈ pre, x = '\t'
    · rw [if_pos (hall.2 hb), if_pos hb, Nat.sub_zero]
      simp [List.append_assoc]
    · rw [if_neg (fun h => hb (hall.1 h)), if_neg hb]
      simp [List.append_assoc]
  · intro h
    have := hget _ h
    cases own with
    | nil => exact absurd rfl hne
    | cons x own =>
      rw [List.append_assoc, List.getElem?_append_right (Nat.le_refl _), Nat.sub_self] at this
      simp only [List.cons_append, List.getElem?_cons_zero, Option.some.injEq] at this
      have := hv x rfl
      simp_all [isSpaceC]
  · intro h
    have := hget _ h
    rw [List.append_assoc, List.getElem?_append_right (by omega), List.getElem?_append_left (by omega),
      show pre.length + own.length - 1 - pre.length = own.length - 1 by omega, ← List.getLast?_eq_getElem?] at this
    exact ht this

/-- A token on the second line, after a tab, with the marker below it; the same on the first
line after a blank, where the marker is one column off. -/
example : (scanText cs!"a b\n\tcd e" ⟨0, 0, 0, 0⟩).map (fun r => r.1.map fun x => yyerror false cs!"f" x.2.2 x.1 cs!"m") =
    some [
      .ok (formatFinding false ⟨cs!"f", 1, ⟨'F', 1, cs!"m"⟩⟩ ++ cs!"    1 | a b\n      | ^\n"),
      .ok (formatFinding false ⟨cs!"f", 1, ⟨'F', 1, cs!"m"⟩⟩ ++ cs!"    1 | a b\n      |  ^\n"),
      .ok (formatFinding false ⟨cs!"f", 2, ⟨'F', 1, cs!"m"⟩⟩ ++ cs!"    2 |     cd e\n      |     ^~\n"),
      .ok (formatFinding false ⟨cs!"f", 2, ⟨'F', 1, cs!"m"⟩⟩ ++ cs!"    2 |     cd e\n      |        ^\n")] := by
  decide +kernel

/-- **C84 (the end of the file).** A syntax error at the end of a file shows an empty line. If the
file ends with a newline this is indeed the line after it; if not, the empty line is shown in place
of the last line, with its number. -/
theorem C84_end {color : Bool} {filename msg : Str} {ls : List Str} {c : LineCache} {n first last : Nat}
    (hc : KeepsLines c (ls ++ [[]])) (hn : n < 2 ^ 32) :
    yyerror color filename c ⟨n, first, n, last⟩ msg = .ok (formatFinding color ⟨filename, n, ⟨'F', 1, msg⟩⟩ ++
      picture color '^' n [] (first - 1) (last + 1 - first)) := by
  rw [yyerror_single (l := []) hc (by simp) hn, printLine_whole (by simp [trimRight, Showable])]
  dsimp only
  simp only [picture, trimRight, List.reverse_nil, List.dropWhile_nil, if_true, hintLine, tabs, expand]
  simp only [List.take_nil, List.drop_nil, List.count_nil, Nat.zero_add, Nat.mul_zero, List.replicate_zero,
    List.append_nil, List.flatMap_nil]
  by_cases h : last > first
  · rw [if_pos h, show last + 1 - first - 1 = last - first by omega]; simp [List.append_assoc]
  · rw [if_neg h, show last + 1 - first - 1 = 0 by omega]; simp [List.append_assoc]

/-- A file that ends with a newline, and one that does not. -/
example : (scanText cs!"a {\n" ⟨0, 0, 0, 0⟩).map (fun r => yyerror false cs!"f" r.2.2 r.2.1 cs!"m") =
      some (.ok (formatFinding false ⟨cs!"f", 2, ⟨'F', 1, cs!"m"⟩⟩ ++ cs!"    2 |\n      | ^\n")) ∧
    (scanText cs!"a {" ⟨0, 0, 0, 0⟩).map (fun r => yyerror false cs!"f" r.2.2 r.2.1 cs!"m") =
      some (.ok (formatFinding false ⟨cs!"f", 1, ⟨'F', 1, cs!"m"⟩⟩ ++ cs!"    1 |\n      |  ^\n")) := by
  decide +kernel

/-- **C84 (unprintable characters).** At the first character of the line that cannot be shown, the
output ends with a warning that names its position, counted from 1. -/
theorem C84_unprintable {color : Bool} {filename msg : Str} {c : LineCache} {seen : List Str} {l a b : Str} {x : Char}
    {n first last : Nat} (hc : KeepsLines c seen) (hl : seen.getLast? = some l) (hn : n < 2 ^ 32)
    (he : trimRight l = a ++ x :: b) (ha : Showable a) (hx : ¬Visible x) :
    yyerror color filename c ⟨n, first, n, last⟩ msg = .ok (formatFinding color ⟨filename, n, ⟨'F', 1, msg⟩⟩ ++
      (padLeft ' ' 5 (natToStr n) ++ cs!" | " ++ expand a ++
        colorError color ++ cs!"!" ++ colorReset color ++ cs!"\n" ++ colorWarning color ++ cs!"Warning" ++
        colorReset color ++ cs!": Line in question contains unprintable character at position " ++
        natToStr (a.length + 1) ++ cs!": 0x" ++ hexOfChar x ++ cs!"\n")) := by
  rw [visible_iff, not_or, Bool.not_eq_true, Bool.not_eq_true] at hx
  rw [yyerror_single hc hl hn, he, printLine_stopped ha hx, if_neg (by simp)]
  simp [List.append_assoc]

/-- **C84 (its value).** The value is printed with two digits only below 0x80: of all other bytes
(those of UTF-8 characters) it is printed with six f before it. -/
theorem C84_hex : ∀ n : Fin 256, hexOfChar (Char.ofNat n.val) =
    (if n.val < 0x80 then [] else cs!"ffffff") ++ [Nat.digitChar (n.val / 16), Nat.digitChar (n.val % 16)] := by
  decide +kernel

example : ∃ c, KeepsLines c [cs!"a \x01b\n"] ∧ yyerror false cs!"f" c ⟨1, 0, 1, 0⟩ cs!"m" = .ok (
    formatFinding false ⟨cs!"f", 1, ⟨'F', 1, cs!"m"⟩⟩ ++
    cs!"    1 | a !\nWarning: Line in question contains unprintable character at position 3: 0x01\n") :=
  ⟨_, KeepsLines.fresh.push cs!"a \x01b\n" 0 0, by decide +kernel⟩

end Selint
