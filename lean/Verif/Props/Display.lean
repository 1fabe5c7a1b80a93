import Verif.Model.Display
import Verif.Spec.Selection
/-! # C69: printed findings can be read back -/

namespace Selint
open Spec (CheckRow checkTable)

/-! ## Splitting at a character -/

theorem split_first {c : Char} {a b x y : Str} (ha : c ∉ a) (hb : c ∉ b) (h : a ++ c :: x = b ++ c :: y) :
    a = b ∧ x = y := by
  induction a generalizing b with
  | nil =>
    cases b with
    | nil => simp at h; exact ⟨rfl, h⟩
    | cons d b => simp at h; exact absurd (by rw [h.1]; simp) hb
  | cons d a ih =>
    cases b with
    | nil => simp at h; exact absurd (by rw [h.1]; simp) ha
    | cons e b =>
      simp only [List.cons_append, List.cons.injEq] at h
      simp only [List.mem_cons, not_or] at ha hb
      obtain ⟨h1, h2⟩ := ih ha.2 hb.2 h.2
      exact ⟨by rw [h.1, h1], h2⟩

theorem split_last {c : Char} {a b x y : Str} (hx : c ∉ x) (hy : c ∉ y) (h : a ++ c :: x = b ++ c :: y) :
    a = b ∧ x = y := by
  have h' := congrArg List.reverse h
  simp only [List.reverse_append, List.reverse_cons, List.append_assoc, List.cons_append, List.nil_append] at h'
  obtain ⟨h1, h2⟩ := split_first (by simpa using hx) (by simpa using hy) h'
  exact ⟨List.reverse_inj.1 h2, List.reverse_inj.1 h1⟩

theorem digit_of_natToStr {n : Nat} {c : Char} (h : c ∈ natToStr n) : c.isDigit = true :=
  Nat.isDigit_of_mem_toDigits (by decide) (by decide) h

theorem not_mem_padLeft {c d : Char} {w n : Nat} (hd : d ≠ c) (hc : c.isDigit = false) :
    c ∉ padLeft d w (natToStr n) := by
  intro h
  simp only [padLeft, List.mem_append, List.mem_replicate] at h
  rcases h with h | h
  · exact hd h.2.symm
  · rw [digit_of_natToStr h] at hc; cases hc

theorem natToStr_inj {n m : Nat} (h : natToStr n = natToStr m) : n = m := by
  have := congrArg (fun s => Nat.ofDigitChars 10 s 0) h
  simpa only [natToStr, Nat.ofDigitChars_ten_toDigits] using this

/-- A number filled with blanks can be read. -/
theorem padLeft_blank_inj {w v n m : Nat} (h : padLeft ' ' w (natToStr n) = padLeft ' ' v (natToStr m)) : n = m := by
  have key : ∀ w n, (padLeft ' ' w (natToStr n)).dropWhile (· = ' ') = natToStr n := by
    intro w n
    unfold padLeft
    rw [List.dropWhile_append_of_pos (by intro c hc; simp only [List.mem_replicate] at hc; simp [hc.2])]
    cases e : natToStr n with
    | nil => exact absurd e Nat.toDigits_ne_nil
    | cons c r =>
      have : c.isDigit = true := digit_of_natToStr (n := n) (by rw [e]; simp)
      have hne : c ≠ ' ' := by rintro rfl; revert this; decide
      simp [hne]
  exact natToStr_inj (by rw [← key w n, ← key v m, h])

/-- A number filled with zeros can be read. -/
theorem padLeft_zero_inj {w v n m : Nat} (h : padLeft '0' w (natToStr n) = padLeft '0' v (natToStr m)) : n = m := by
  have key : ∀ w n, Nat.ofDigitChars 10 (padLeft '0' w (natToStr n)) 0 = n := by
    intro w n
    unfold padLeft
    generalize w - (natToStr n).length = k
    induction k with
    | zero => simp [natToStr]
    | succ k ih =>
      rw [List.replicate_succ, List.cons_append, Nat.ofDigitChars_cons]
      simpa using ih
  rw [← key w n, ← key v m, h]

theorem colorSeverity_paren (e : Bool) (s : Char) : '(' ∉ colorSeverity e s := by
  unfold colorSeverity
  split
  · simp
  · split
    · decide
    · split
      · decide
      · split
        · decide
        · split <;> decide

/-! ## C69 -/

/-- **C69.** Two findings are printed as the same line only if they are the same: file, line
number, severity, id and message can be read from the line. File names with a colon are
excluded. -/
theorem C69_readable (e : Bool) {f g : Finding} (hf : ':' ∉ f.filename) (hg : ':' ∉ g.filename)
    (h : formatFinding e f = formatFinding e g) : f = g := by
  obtain ⟨fn, fl, fs, fi, fm⟩ := f
  obtain ⟨gn, gl, gs, gi, gm⟩ := g
  simp only [formatFinding, List.append_assoc, List.cons_append, List.nil_append] at h hf hg
  obtain ⟨h1, k1⟩ := split_first hf hg h
  subst h1
  obtain ⟨h2, k2⟩ := split_first (not_mem_padLeft (by decide) (by decide)) (not_mem_padLeft (by decide) (by decide)) k1
  have := padLeft_blank_inj h2
  subst this
  simp only [List.cons.injEq, true_and] at k2
  obtain ⟨-, k3⟩ := split_first (colorSeverity_paren e fs) (colorSeverity_paren e gs) k2
  simp only [List.cons.injEq] at k3
  obtain ⟨h3, -, k4⟩ := k3
  subst h3
  rw [List.append_cancel_left_eq] at k4
  simp only [List.cons.injEq, true_and] at k4
  have h' : (fm ++ [' ', '(', fs]) ++ '-' :: (padLeft '0' 3 (natToStr fi) ++ [')', '\n']) =
      (gm ++ [' ', '(', fs]) ++ '-' :: (padLeft '0' 3 (natToStr gi) ++ [')', '\n']) := by simpa using k4
  have hm : ∀ i, '-' ∉ padLeft '0' 3 (natToStr i) ++ [')', '\n'] := by
    intro i
    have := not_mem_padLeft (c := '-') (d := '0') (w := 3) (n := i) (by decide) (by decide)
    simp [this]
  obtain ⟨h4, h5⟩ := split_last (hm fi) (hm gi) h'
  have := padLeft_zero_inj (List.append_cancel_right h5)
  subst this
  have := List.append_cancel_right h4
  subst this
  rfl

/-- The condition on file names is needed. -/
theorem C69_false_colon : ∃ f g : Finding, f ≠ g ∧ formatFinding false f = formatFinding false g :=
  ⟨⟨cs!"a", 1, 'W', 1, cs!"x:2: (W): y"⟩,
    ⟨cs!"a:" ++ List.replicate 20 ' ' ++ cs!"1: (W): x", 2, 'W', 1, cs!"y"⟩,
    by decide, by decide +kernel⟩

/-- The text without its escape sequences (from ESC to `m`). -/
def Spec.withoutColours : Bool → Str → Str
  | _, [] => []
  | false, c :: r => if c = '\x1b' then withoutColours true r else c :: withoutColours false r
  | true, c :: r => if c = 'm' then withoutColours false r else withoutColours true r

theorem withoutColours_plain {a : Str} (h : '\x1b' ∉ a) (b : Str) :
    Spec.withoutColours false (a ++ b) = a ++ Spec.withoutColours false b := by
  induction a with
  | nil => rfl
  | cons c a ih =>
    simp only [List.mem_cons, not_or] at h
    simp [Spec.withoutColours, Ne.symm h.1, ih h.2]

theorem withoutColours_severity (s : Char) (b : Str) :
    Spec.withoutColours false (colorSeverity true s ++ b) = Spec.withoutColours false b := by
  unfold colorSeverity
  split
  · rfl
  · split
    · rfl
    · split
      · rfl
      · split
        · rfl
        · split <;> rfl

/-- **C69 (colours).** Colours only add escape sequences to the line. -/
theorem C69_colours {f : Finding} (h1 : '\x1b' ∉ f.filename) (h2 : '\x1b' ∉ f.result.message)
    (h3 : f.result.severity ≠ '\x1b') :
    Spec.withoutColours false (formatFinding true f) = formatFinding false f := by
  have hr : ∀ b, Spec.withoutColours false (colorReset true ++ b) = Spec.withoutColours false b := fun _ => rfl
  have hn : '\x1b' ∉ padLeft ' ' (linePadding f.filename) (natToStr f.lineno) :=
    not_mem_padLeft (by decide) (by decide)
  have hi : '\x1b' ∉ padLeft '0' 3 (natToStr f.result.checkId) := not_mem_padLeft (by decide) (by decide)
  have hc : ∀ (c : Char) b, c ≠ '\x1b' → Spec.withoutColours false (c :: b) = c :: Spec.withoutColours false b := by
    intro c b h; simp [Spec.withoutColours, h]
  have h0 : colorSeverity false f.result.severity = [] := rfl
  have h0' : colorReset false = [] := rfl
  simp only [formatFinding, List.append_assoc, List.cons_append, List.nil_append, h0, h0']
  rw [withoutColours_plain h1, hc _ _ (by decide), withoutColours_plain hn, hc _ _ (by decide), hc _ _ (by decide),
    withoutColours_severity, hc _ _ (by decide), hc _ _ h3, hc _ _ (by decide), hr, hc _ _ (by decide),
    hc _ _ (by decide), withoutColours_plain h2, hc _ _ (by decide), hc _ _ (by decide), hc _ _ h3,
    hc _ _ (by decide), withoutColours_plain hi]
  rfl

/-- **C69 (columns).** If file name and line number fit, the colon behind the line number is in
column 24, so the numbers of a listing are right-aligned. -/
theorem C69_columns (e : Bool) (f : Finding) (h : f.filename.length + (natToStr f.lineno).length ≤ 22) :
    ∃ rest, (formatFinding e f).drop 23 = ':' :: rest ∧
      (formatFinding e f).take 23 = f.filename ++ ':' ::
        (List.replicate (22 - f.filename.length - (natToStr f.lineno).length) ' ' ++ natToStr f.lineno) := by
  have hp : linePadding f.filename = 22 - f.filename.length := by unfold linePadding; split <;> omega
  have hl : (f.filename ++ ':' :: (List.replicate (22 - f.filename.length - (natToStr f.lineno).length) ' ' ++
      natToStr f.lineno)).length = 23 := by simp; omega
  have he : ∃ rest, formatFinding e f = (f.filename ++ ':' ::
      (List.replicate (22 - f.filename.length - (natToStr f.lineno).length) ' ' ++ natToStr f.lineno)) ++
      ':' :: rest :=
    ⟨_, by simp only [formatFinding, padLeft, hp, List.append_assoc, List.cons_append, List.nil_append]; rfl⟩
  obtain ⟨rest, he⟩ := he
  refine ⟨rest, ?_, ?_⟩
  · rw [he, List.drop_append_of_le_length (by omega), List.drop_of_length_le (by omega)]; rfl
  · rw [he, List.take_append_of_le_length (by omega), List.take_of_length_le (by omega)]

theorem padLeft_id : ∀ r ∈ checkTable, r.sev :: '-' :: padLeft '0' 3 (natToStr r.num) = r.id := by
  decide +kernel

/-- **C69 (ids).** The line of a finding of a check ends in the id under which the check is
enabled, disabled and counted. -/
theorem C69_id (e : Bool) (f : Finding) {r : CheckRow} (hr : r ∈ checkTable) (h1 : f.result.severity = r.sev)
    (h2 : f.result.checkId = r.num) : cs!" (" ++ r.id ++ cs!")\n" <:+ formatFinding e f := by
  rw [← padLeft_id r hr, ← h1, ← h2]
  refine ⟨f.filename ++ [':'] ++ padLeft ' ' (linePadding f.filename) (natToStr f.lineno) ++ cs!": "
    ++ colorSeverity e f.result.severity ++ ['('] ++ [f.result.severity] ++ [')'] ++ colorReset e
    ++ cs!": " ++ f.result.message, ?_⟩
  simp only [formatFinding, List.append_assoc, List.cons_append, List.nil_append]

/-- Ids have at least three digits. -/
example : formatFinding false ⟨cs!"foo.te", 12, 'W', 1, cs!"No explicit declaration"⟩ =
    cs!"foo.te:              12: (W): No explicit declaration (W-001)\n" := by decide +kernel

/-- With colours. -/
example : formatFinding true ⟨cs!"foo.te", 12, 'E', 2, cs!"Bad"⟩ =
    cs!"foo.te:              12: \x1b[31;1m(E)\x1b[0m: Bad (E-002)\n" := by decide +kernel

end Selint
