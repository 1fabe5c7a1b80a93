import Verif.Lemmas.ParseFc
/-!
# Parsing file context files: property theorems

* C35: an entry that is written down and parsed gives the entry back.
* C36: the parser stays inside of the line.
* C37: every line that is not skipped gives one node with its line number.
-/

namespace Selint

open Spec (token blank contextText genContextText EntryText LabelText IsName IsRange)

/-! ## C36 -/

/-- C36, partial: on the lines described by `Spec.Tame` the parser reads and writes only
inside of the line (the buffer has no byte behind the terminating NUL), whatever the line
contains otherwise. Missing: the lines that are not tame, for which the property is false
(`C36_false_category`, `C36_false_hyphen`). -/
theorem C36_inside_line_partial (line : Str) (h : Spec.Tame line) :
    parseFcLine (lineBuf line []) ≠ .ub := by
  rw [parseFcLine_text [] h]; exact fun h => nomatch h

/-- What the buffer holds behind the line does not influence the result. -/
theorem C36_tail_ignored (line : Str) (tail : LineBytes) (h : Spec.Tame line) :
    parseFcLine (lineBuf line tail) = parseFcLine (lineBuf line []) := by
  rw [parseFcLine_text tail h, parseFcLine_text [] h]

/-- The lines without a category — at most one comma — are tame if they end in a newline. -/
theorem tame_of_one_comma {line : Str} (h0 : ∀ c ∈ line, c ≠ '\x00')
    (hnl : line.getLast? = some '\n') (hc : (line.filter (· = ',')).length ≤ 1) :
    Spec.Tame line := by
  refine ⟨h0, ?_, ?_⟩
  · intro a b _ e
    rw [e] at hnl
    simp at hnl
  · intro path cls s hs hg ctx s1 level s2 category s3 h1 h2 h3
    exfalso
    obtain ⟨a, ha⟩ := splitLine_suffix hs
    obtain ⟨r, hr⟩ := hg
    have hd : s.drop 12 = r := by rw [← hr]; rfl
    rw [hd] at h1
    -- every token that is followed by another one is followed by a comma
    have count : ∀ {x t y t' z : Str}, token (· = ',') x = some (t, y) → token (· = ',') y = some (t', z) →
        (y.filter (· = ',')).length < (x.filter (· = ',')).length := by
      intro x t y t' z e1 e2
      rcases token_shape (· = ',') x with h | ⟨ds, u, rfl, k1, k2, k3⟩ | ⟨ds, u, c, v, rfl, k1, k2, k3, k4⟩
      · rw [token_none h] at e1; cases e1
      · rw [token_last k1 k2 k3] at e1
        injection e1 with e1
        injection e1 with _ e1
        subst e1; cases e2
      · rw [token_delim k1 k2 k3 k4] at e1
        injection e1 with e1
        injection e1 with _ e1
        subst e1
        simp only [List.filter_append, List.length_append, List.filter_cons, k4, if_true, List.length_cons]
        omega
    have c1 := count h1 h2
    have c2 := count h2 h3
    have : (r.filter (· = ',')).length ≤ (line.filter (· = ',')).length := by
      rw [ha, ← hr]; simp only [List.filter_append, List.length_append]; omega
    omega

/-- A line with a level is tame, one with a level and a category as long as the level is too. -/
example : Spec.Tame cs!"/x(/.*)?\t--\tgen_context(system_u:object_r:x_t,s0)\n" :=
  tame_of_one_comma (by decide) (by decide) (by decide)

theorem scan_out {p : Char → Bool} {b : LineBytes} (fuel i : Nat) (h : b.length ≤ i) :
    scanWhile p b fuel i = .ub :=
  scan_ub fuel i fun j c hj hc => by
    rw [List.getElem?_eq_none (by omega)] at hc; cases hc

theorem splitLine_simple {path s : Str} (hp : path ≠ []) (hpc : ∀ c ∈ path, blank c = false)
    (hs : ∀ c, s.head? = some c → blank c = false ∧ c ≠ '-') (hne : s ≠ []) :
    Spec.splitLine (path ++ ' ' :: s) = some (path, none, s) :=
  splitLine_plain (ds := []) (t := path) (x := ' ') (ds2 := []) (s := s)
    ⟨rfl, by simp, hpc, hp, rfl, by simp, fun c hc => (hs c hc).1, hne⟩
    fun h => (hs _ h).2 rfl

/-- The negation of C36, for a whole class of lines: if the category (with the rest of the
line) is shorter than the level, the scan for the closing parenthesis starts behind the end of
the line. -/
theorem C36_category_overrun (path ctx level category : Str) (hp : path ≠ [])
    (hpc : ∀ c ∈ path, blank c = false ∧ c ≠ '\x00') (hx : ctx ≠ [])
    (hxc : ∀ c ∈ ctx, c ≠ ',' ∧ c ≠ '\x00') (hl : level ≠ [])
    (hlc : ∀ c ∈ level, c ≠ ',' ∧ c ≠ '\x00' ∧ c ≠ ')')
    (hcc : ∀ c ∈ category, c ≠ ',' ∧ c ≠ '\x00') (hnl : category.getLast? = some '\n')
    (hlen : category.length < level.length) :
    parseFcLine (lineBuf
      (path ++ cs!" gen_context(" ++ ctx ++ ',' :: level ++ ',' :: category) []) = .ub := by
  have hcat : category ≠ [] := by rintro rfl; simp at hnl
  generalize hline : path ++ cs!" gen_context(" ++ ctx ++ ',' :: level ++ ',' :: category = line
  have hs : ∀ c ∈ line, c ≠ '\x00' := by
    intro c hc
    subst hline
    rintro rfl
    simp only [List.mem_append] at hc
    rcases hc with (((h | h) | h) | h) | h
    · exact (hpc _ h).2 rfl
    · exact absurd h (by decide)
    · exact (hxc _ h).2 rfl
    · exact (List.mem_cons.1 h).elim (by decide) fun h => (hlc _ h).2.1 rfl
    · exact (List.mem_cons.1 h).elim (by decide) fun h => (hcc _ h).2 rfl
  have hy : ∀ a b, blank b = true → line ≠ a ++ [b, '-'] := by
    intro a b _ e
    have := congrArg List.getLast? e
    rw [← hline] at this
    rw [List.getLast?_append, List.getLast?_cons_of_ne_nil hcat] at this
    simp [hnl] at this
  have hsp := splitLine_simple (path := path)
    (s := cs!"gen_context(" ++ (ctx ++ ',' :: (level ++ ',' :: category))) hp (fun c hc => (hpc c hc).1)
    (by simp; decide) (by simp)
  have hline' : line = path ++ ' ' :: (cs!"gen_context(" ++ (ctx ++ ',' :: (level ++ ',' :: category))) := by
    rw [← hline]; simp
  rw [← hline'] at hsp
  rw [parseFcLine_split [] hs hy, lineRes_split hsp]
  suffices h : fcLabel (lineBuf line [])
      (line.length - (cs!"gen_context(" ++ (ctx ++ ',' :: (level ++ ',' :: category))).length) = .ub by
    rw [h]; rfl
  have hpos : line.length - (cs!"gen_context(" ++ (ctx ++ ',' :: (level ++ ',' :: category))).length
      = path.length + 1 := by
    rw [hline']; simp; omega
  rw [hpos]
  unfold fcLabel
  rw [cstr_at (P := (path ++ [' ']).map some) (R := [])
    (w := cs!"gen_context(" ++ (ctx ++ ',' :: (level ++ ',' :: category)))
    (by rw [hline']; simp [lineBuf]) (by simp) (fun c hc => hs c (by
      rw [hline']; exact List.mem_append_right _ (List.mem_cons_of_mem _ hc))),
    Res.bind_ok, if_pos ⟨_, rfl⟩]
  unfold genContext
  have e1 := strtokB_delim (delim := fun c => c = ',') (b := lineBuf line [])
    (i := path.length + 1 + 12) (P := (path ++ cs!" gen_context(").map some)
    (ds := []) (t := ctx) (x := ',') (R := (level ++ ',' :: category).map some ++ [some '\x00'])
    (by rw [hline']; simp [lineBuf]) (by simp) (by simp) (fun c hc => by simpa using hxc c hc) hx (by simp)
    (by simp)
  have e2 := strtokB_delim (delim := fun c => c = ',')
    (b := (path ++ cs!" gen_context(").map some ++ ([] ++ ctx).map some ++
      some '\x00' :: ((level ++ ',' :: category).map some ++ [some '\x00']))
    (i := path.length + 1 + 12 + ([] : Str).length + ctx.length + 1)
    (P := (path ++ cs!" gen_context(" ++ ctx).map some ++ [some '\x00'])
    (ds := []) (t := level) (x := ',') (R := category.map some ++ [some '\x00'])
    (by simp) (by simp; omega) (by simp) (fun c hc => by
      have := hlc c hc; simpa using ⟨this.1, this.2.1⟩) hl (by simp)
    (by simp)
  have e3 := strtokB_last (delim := fun c => c = ',')
    (b := (path ++ cs!" gen_context(" ++ ctx).map some ++ [some '\x00'] ++ ([] ++ level).map some ++
      some '\x00' :: (category.map some ++ [some '\x00']))
    (i := path.length + 1 + 12 + ([] : Str).length + ctx.length + 1 + ([] : Str).length + level.length + 1)
    (P := (path ++ cs!" gen_context(" ++ ctx).map some ++ [some '\x00'] ++ level.map some ++ [some '\x00'])
    (ds := []) (t := category) (R := [])
    (by simp) (by simp; omega) (by simp) (fun c hc => by simpa using hcc c hc) hcat
  rw [e1, Res.bind_ok]
  simp only []
  rw [e2, Res.bind_ok]
  simp only []
  rw [e3, Res.bind_ok]
  unfold genWithLevel
  generalize hP : (path ++ cs!" gen_context(" ++ ctx).map some ++ [some '\x00'] = P
  have hPl : P.length = path.length + 1 + 12 + ctx.length + 1 := by rw [← hP]; simp; omega
  rw [scanParen_at (P := P) (w := level)
    (x := '\x00') (R := category.map some ++ [some '\x00']) (by simp) (by simp; omega)
    (fun c hc => (hlc c hc).2) (.inl rfl), Res.bind_ok,
    LineBytes.rd_at (P := P ++ level.map some)
    (c := '\x00') (R := category.map some ++ [some '\x00']) (by simp) (by simp; omega), Res.bind_ok,
    if_neg (by simp),
    LineBytes.wr_at (P := P ++ level.map some)
    (x := some '\x00') (R := category.map some ++ [some '\x00']) '\x00' (by simp) (by simp; omega), Res.bind_ok,
    trimStart_at (P := P) (w := level)
      (R := category.map some ++ [some '\x00']) (by simp) (by simp; omega) (fun c hc => (hlc c hc).2.1), Res.bind_ok]
  simp only [finishCategory, scanParen]
  rw [scan_out _ _ (by simp; omega)]
  rfl

/-- C36 is false: a level that is longer than the category makes the parser read behind the
end of the line. -/
theorem C36_false_category :
    ¬ ∀ line : Str, (∀ c ∈ line, c ≠ '\x00') → parseFcLine (lineBuf line []) ≠ .ub := by
  intro h
  refine h cs!"/x gen_context(system_u:object_r:x_t, mls_systemhigh, c0)\n" (by decide) ?_
  exact C36_category_overrun cs!"/x" cs!"system_u:object_r:x_t" cs!" mls_systemhigh" cs!" c0)\n"
    (by decide) (by decide) (by decide) (by decide) (by decide) (by decide) (by decide) (by decide)
    (by decide)

/-- C36 is false for a second reason: a last line (without newline) that ends in a hyphen. -/
theorem C36_false_hyphen : parseFcLine (lineBuf cs!"/x -" []) = .ub := by decide +kernel

/-! ## C35 -/

theorem contextText_three {u r t : Str} (hu : u ≠ []) (hr : r ≠ []) (ht : t ≠ [])
    (huc : ∀ c ∈ u, c ≠ ':' ∧ c ≠ '(') (hrc : ∀ c ∈ r, c ≠ ':' ∧ c ≠ '(')
    (htc : ∀ c ∈ t, c ≠ ':' ∧ c ≠ '(') :
    contextText (u ++ ':' :: (r ++ ':' :: t)) = some ⟨false, u, r, t, none⟩ := by
  have hp : '(' ∉ u ++ ':' :: (r ++ ':' :: t) := by
    simp only [List.mem_append, List.mem_cons]
    rintro (h | h | h | h | h)
    · exact (huc _ h).2 rfl
    · exact absurd h (by decide)
    · exact (hrc _ h).2 rfl
    · exact absurd h (by decide)
    · exact (htc _ h).2 rfl
  have e1 := token_delim (sep := (· = ':')) (ds := []) (t := u) (x := ':') (r := r ++ ':' :: t)
    (by simp) (fun c hc => by simpa using (huc c hc).1) hu (by simp)
  have e2 := token_delim (sep := (· = ':')) (ds := []) (t := r) (x := ':') (r := t)
    (by simp) (fun c hc => by simpa using (hrc c hc).1) hr (by simp)
  have e3 := token_last (sep := (· = ':')) (ds := []) (t := t)
    (by simp) (fun c hc => by simpa using (htc c hc).1) ht
  simp only [List.nil_append] at e1 e2 e3
  unfold contextText
  rw [if_neg hp, e1]
  simp only [e2, e3]
  rfl

theorem contextText_four {u r t m : Str} (hu : u ≠ []) (hr : r ≠ []) (ht : t ≠ []) (hm : m ≠ [])
    (huc : ∀ c ∈ u, c ≠ ':' ∧ c ≠ '(') (hrc : ∀ c ∈ r, c ≠ ':' ∧ c ≠ '(')
    (htc : ∀ c ∈ t, c ≠ ':' ∧ c ≠ '(') (hmc : ∀ c ∈ m, c ≠ ':' ∧ c ≠ '(') :
    contextText (u ++ ':' :: (r ++ ':' :: (t ++ ':' :: m))) = some ⟨false, u, r, t, some m⟩ := by
  have hp : '(' ∉ u ++ ':' :: (r ++ ':' :: (t ++ ':' :: m)) := by
    simp only [List.mem_append, List.mem_cons]
    rintro (h | h | h | h | h | h | h)
    · exact (huc _ h).2 rfl
    · exact absurd h (by decide)
    · exact (hrc _ h).2 rfl
    · exact absurd h (by decide)
    · exact (htc _ h).2 rfl
    · exact absurd h (by decide)
    · exact (hmc _ h).2 rfl
  have e1 := token_delim (sep := (· = ':')) (ds := []) (t := u) (x := ':') (r := r ++ ':' :: (t ++ ':' :: m))
    (by simp) (fun c hc => by simpa using (huc c hc).1) hu (by simp)
  have e2 := token_delim (sep := (· = ':')) (ds := []) (t := r) (x := ':') (r := t ++ ':' :: m)
    (by simp) (fun c hc => by simpa using (hrc c hc).1) hr (by simp)
  have e3 := token_delim (sep := (· = ':')) (ds := []) (t := t) (x := ':') (r := m)
    (by simp) (fun c hc => by simpa using (htc c hc).1) ht (by simp)
  have e4 := token_last (sep := (· = ':')) (ds := []) (t := m)
    (by simp) (fun c hc => by simpa using (hmc c hc).1) hm
  simp only [List.nil_append] at e1 e2 e3 e4
  unfold contextText
  rw [if_neg hp, e1]
  simp only [e2, e3, e4]
  rfl

theorem Spec.IsName.colon {s : Str} (h : IsName s) : ∀ c ∈ s, c ≠ ':' ∧ c ≠ '(' :=
  fun c hc => ⟨(h.chars c hc).2.1, (h.chars c hc).2.2.2.1⟩

/-- The text of a context in a `gen_context` call, with the properties needed below. -/
structure CtxText (s : Str) (u r t : Str) : Prop where
  parsed : contextText s = some ⟨false, u, r, t, none⟩
  ne : s ≠ []
  chars : ∀ c ∈ s, c ≠ ',' ∧ c ≠ ')'

theorem ctxText_names {u r t : Str} (hu : IsName u) (hr : IsName r) (ht : IsName t) :
    CtxText (u ++ ':' :: (r ++ ':' :: t)) u r t := by
  refine ⟨contextText_three hu.nonempty hr.nonempty ht.nonempty hu.colon hr.colon ht.colon,
    by simp, ?_⟩
  intro c hc
  simp only [List.mem_append, List.mem_cons] at hc
  rcases hc with h | rfl | h | rfl | h
  · exact ⟨(hu.chars c h).2.2.1, (hu.chars c h).2.2.2.2.1⟩
  · decide
  · exact ⟨(hr.chars c h).2.2.1, (hr.chars c h).2.2.2.2.1⟩
  · decide
  · exact ⟨(ht.chars c h).2.2.1, (ht.chars c h).2.2.2.2.1⟩

theorem uptoParen_at {w v : Str} (h : ')' ∉ w) : Spec.uptoParen (w ++ ')' :: v) = some w := by
  rw [Spec.uptoParen, if_pos (by simp), takeWhile_append_all
    (fun c hc => by simpa using fun (e : c = ')') => h (e ▸ hc))]
  simp

section gen
variable {ctx u r t rest : Str} (hx : CtxText ctx u r t) (hrest : ∀ c ∈ rest, c ≠ ',')
include hx hrest

theorem tokens_gen : token (· = ',') (ctx ++ ')' :: rest) = some (ctx ++ ')' :: rest, []) :=
  token_last (ds := []) (t := ctx ++ ')' :: rest) (by simp) (fun c hc => by
    simp only [List.mem_append, List.mem_cons] at hc
    rcases hc with h | rfl | h
    · simpa using (hx.chars c h).1
    · decide
    · simpa using hrest c h) (by simp)

theorem genContextText_gen :
    genContextText (ctx ++ ')' :: rest) = some ⟨true, u, r, t, none⟩ := by
  have e2 : token (· = ',') ([] : Str) = none := rfl
  simp only [genContextText, tokens_gen hx hrest, e2,
    uptoParen_at (v := rest) (fun h => (hx.chars _ h).2 rfl), hx.parsed]
  rfl

omit hrest in
theorem tokens_ctx (s : Str) : token (· = ',') (ctx ++ ',' :: s) = some (ctx, s) :=
  token_delim (ds := []) (by simp) (fun c hc => by simpa using (hx.chars c hc).1) hx.ne (by simp)

omit hx in
theorem tokens_level {w s : Str} (hw : ∀ c ∈ w, blank c = true) (hs : IsRange s) :
    token (· = ',') (w ++ s ++ ')' :: rest) = some (w ++ s ++ ')' :: rest, []) :=
  token_last (ds := []) (t := w ++ s ++ ')' :: rest) (by simp) (fun c hc => by
    simp only [List.mem_append, List.mem_cons] at hc
    rcases hc with (h | h) | rfl | h
    · simpa using fun (e : c = ',') => by subst e; exact absurd (hw _ h) (by decide)
    · simpa using (hs.chars c h).2.1
    · decide
    · simpa using hrest c h) (by simp)

omit hx hrest in
theorem paren_range {w s : Str} (hw : ∀ c ∈ w, blank c = true) (hs : IsRange s) : ')' ∉ w ++ s := by
  simp only [List.mem_append]
  rintro (h | h)
  · cases hw _ h
  · exact (hs.chars _ h).2.2.1 rfl

omit hx hrest in
theorem trim_range {w s : Str} (hw : ∀ c ∈ w, blank c = true) (hs : IsRange s) :
    (w ++ s).dropWhile blank = s := by
  have := dropWhile_seps (sep := blank) (r := []) hw (fun c hc => (hs.chars c hc).2.2.2) hs.nonempty
  simpa using this

theorem genContextText_level {w s : Str} (hw : ∀ c ∈ w, blank c = true) (hs : IsRange s) :
    genContextText (ctx ++ ',' :: (w ++ s ++ ')' :: rest)) = some ⟨true, u, r, t, some s⟩ := by
  have e2 : token (· = ',') ([] : Str) = none := rfl
  simp only [genContextText, tokens_ctx hx, tokens_level hrest hw hs, e2,
    uptoParen_at (v := rest) (paren_range hw hs), trim_range hw hs, hx.parsed]
  rfl

omit hx hrest in
theorem tokens_level_comma {w s x : Str} (hw : ∀ c ∈ w, blank c = true) (hs : IsRange s) :
    token (· = ',') (w ++ s ++ ',' :: x) = some (w ++ s, x) := by
  have := token_delim (sep := (· = ',')) (ds := []) (t := w ++ s) (x := ',') (r := x)
    (by simp) (fun c hc => by
      simp only [List.mem_append] at hc
      rcases hc with h | h
      · simpa using fun (e : c = ',') => by subst e; exact absurd (hw _ h) (by decide)
      · simpa using (hs.chars c h).2.1) (by simp [hs.nonempty]) (by simp)
  simpa using this

theorem genContextText_category {w s w' k : Str} (hw : ∀ c ∈ w, blank c = true) (hs : IsRange s)
    (hw' : ∀ c ∈ w', blank c = true) (hk : IsRange k) (hlen : (w ++ s).length ≤ (w' ++ k).length) :
    genContextText (ctx ++ ',' :: (w ++ s ++ ',' :: (w' ++ k ++ ')' :: rest))) =
      some ⟨true, u, r, t, some (s ++ ':' :: k)⟩ := by
  have e1 : (w ++ s).takeWhile (· ≠ ')') = w ++ s :=
    takeWhile_all fun c hc => by simpa using fun (e : c = ')') => paren_range hw hs (e ▸ hc)
  have e2 : Spec.uptoParenFrom (w ++ s).length (w' ++ k ++ ')' :: rest) = some (w' ++ k) := by
    unfold Spec.uptoParenFrom
    rw [List.drop_append_of_le_length hlen, List.take_append_of_le_length hlen,
      uptoParen_at (fun h => paren_range hw' hk (List.mem_of_mem_drop h))]
    simp only [Option.map_some, List.take_append_drop]
  simp only [genContextText, tokens_ctx hx, tokens_level_comma hw hs, tokens_level hrest hw' hk, e1, e2,
    trim_range hw hs, trim_range hw' hk, hx.parsed]
  rfl

end gen

/-- How a label begins. -/
theorem label_head {l : LabelText} (h : l.WF) (eol : Str) :
    ∃ c cs, l.render ++ eol = c :: cs ∧ blank c = false ∧ c ≠ '-' := by
  cases l with
  | none => exact ⟨'<', cs!"<none>>" ++ eol, rfl, by decide, by decide⟩
  | plain u r t m =>
    obtain ⟨hu, -⟩ := h
    match u, hu with
    | c :: u, hu =>
      refine ⟨c, ?_⟩
      have hb := (hu.chars c (by simp)).2.2.2.2.2
      have hh := hu.no_hyphen
      cases m with
      | none => exact ⟨_, rfl, hb, by simpa using hh⟩
      | some m => exact ⟨_, rfl, hb, by simpa using hh⟩
    | [], hu => exact absurd rfl hu.nonempty
  | gen u r t => exact ⟨'g', _, rfl, by decide, by decide⟩
  | genLevel u r t w s => exact ⟨'g', _, rfl, by decide, by decide⟩
  | genCategory u r t w s w' c => exact ⟨'g', _, rfl, by decide, by decide⟩

/-- Splitting a line that was written down. -/
theorem splitLine_render {e : EntryText} (h : e.WF) (eol : Str) :
    Spec.splitLine (e.render ++ eol) = some (e.path, e.cls.map (·.1), e.label.render ++ eol) := by
  obtain ⟨c, cs, hl, hb, hh⟩ := label_head h.label eol
  match hg : e.gap, h.gap.nonempty with
  | x :: g, _ =>
    have hgc : ∀ y ∈ x :: g, blank y = true := by rw [← hg]; exact h.gap.chars
    match hk : e.cls with
    | none =>
      have hsec : SecondAt (e.render ++ eol) e.lead e.path x g (e.label.render ++ eol) :=
        ⟨by simp [EntryText.render, hg, hk], h.lead, fun c hc => (h.path.chars c hc).2, h.path.nonempty,
          hgc x (by simp), fun c hc => hgc c (by simp [hc]), by rw [hl]; simpa using hb, by rw [hl]; simp⟩
      rw [splitLine_plain hsec (by rw [hl]; simpa using hh)]
      rfl
    | some (o, g2) =>
      obtain ⟨ho0, ho, hg2⟩ := h.cls o g2 hk
      have hsec : SecondAt (e.render ++ eol) e.lead e.path x g
          ('-' :: o :: (g2 ++ (e.label.render ++ eol))) :=
        ⟨by simp [EntryText.render, hg, hk], h.lead, fun c hc => (h.path.chars c hc).2, h.path.nonempty,
          hgc x (by simp), fun c hc => hgc c (by simp [hc]), by simp; decide, by simp⟩
      have e2 : (g2 ++ (e.label.render ++ eol)).dropWhile blank = e.label.render ++ eol := by
        rw [dropWhile_append_all hg2.chars, hl]; simp [hb]
      rw [splitLine_class hsec ho (by
        match g2, hg2 with
        | y :: g2, hg2 => simpa using hg2.chars y (by simp)
        | [], hg2 => exact absurd rfl hg2.nonempty), e2, if_neg (by rw [hl]; simp)]
      rfl

/-- No NUL in what is written down. -/
theorem label_no_nul {l : LabelText} (h : l.WF) : ∀ c ∈ l.render, c ≠ '\x00' := by
  have name : ∀ {s : Str}, IsName s → '\x00' ∉ s := fun hs hm => (hs.chars _ hm).1 rfl
  have rng : ∀ {s : Str}, IsRange s → '\x00' ∉ s := fun hs hm => (hs.chars _ hm).1 rfl
  have ws : ∀ {s : Str}, (∀ c ∈ s, blank c = true) → '\x00' ∉ s :=
    fun hs hm => absurd (hs _ hm) (by decide)
  rintro c hc rfl
  cases l with
  | none => revert hc; decide
  | plain u r t m =>
    obtain ⟨hu, hr, ht, hm⟩ := h
    cases m with
    | none => simp [LabelText.render, name hu, name hr, name ht] at hc
    | some m => simp [LabelText.render, name hu, name hr, name ht, name (hm m rfl)] at hc
  | gen u r t =>
    obtain ⟨hu, hr, ht⟩ := h
    simp [LabelText.render, name hu, name hr, name ht] at hc
  | genLevel u r t w s =>
    obtain ⟨hu, hr, ht, hw, hs⟩ := h
    simp [LabelText.render, name hu, name hr, name ht, ws hw, rng hs] at hc
  | genCategory u r t w s w' k =>
    obtain ⟨hu, hr, ht, hw, hs, hw', hk⟩ := h
    simp [LabelText.render, name hu, name hr, name ht, ws hw, rng hs, ws hw', rng hk] at hc

theorem render_no_nul {e : EntryText} (h : e.WF) : ∀ c ∈ e.render, c ≠ '\x00' := by
  have ws : ∀ {s : Str}, (∀ c ∈ s, blank c = true) → '\x00' ∉ s :=
    fun hs hm => absurd (hs _ hm) (by decide)
  have hp : '\x00' ∉ e.path := fun hm => (h.path.chars _ hm).1 rfl
  have hl : '\x00' ∉ e.label.render := fun hm => label_no_nul h.label _ hm rfl
  rintro c hc rfl
  simp only [EntryText.render, List.mem_append, ws h.lead, hp, ws h.gap.chars, hl, or_false, false_or] at hc
  split at hc
  · simp at hc
  · rename_i o g hk
    obtain ⟨ho, _, hg⟩ := h.cls o g hk
    simp [ws hg.chars, Ne.symm ho] at hc

/-- The labels that survive a trip through the parser when a newline follows: everything except
plain contexts, and categories only if the closing parenthesis behind the category is at least
as far from its comma as the end of the level is from its own. -/
def SurvivesNewline : LabelText → Prop
  | .plain .. => False
  | .genCategory _ _ _ w s w' c => (w ++ s).length ≤ (w' ++ c).length
  | _ => True

/-- C35, partial: a well-formed entry that is written on a line and parsed gives exactly that
entry, for all paths, object classes, white space, names and ranges. The full property has no
hypothesis `hsv`; without it the statement is false, see `C35_false_plain` and
`C35_false_category`. -/
theorem C35_round_trip_partial (e : EntryText) (h : e.WF) (eol : Str)
    (heol : eol = cs!"\n" ∨ eol = cs!"\r\n") (tail : LineBytes) (hsv : SurvivesNewline e.label) :
    parseFcLine (lineBuf (e.render ++ eol) tail) = .ok (some e.entry) := by
  have hsp := splitLine_render h eol
  have hcomma : ∀ c ∈ eol, c ≠ ',' := by rcases heol with rfl | rfl <;> decide
  have heq : Spec.entryText (e.render ++ eol) = some e.entry ∧
      (cs!"gen_context(" <+: e.label.render ++ eol →
        Spec.CategoryReaches ((e.label.render ++ eol).drop 12)) := by
    rw [entryText_split hsp]
    have hlab := h.label
    unfold EntryText.entry labelEntry
    match hl : e.label with
    | .none =>
      rw [hl] at hlab
      rcases heol with rfl | rfl
      · exact ⟨rfl, fun h => absurd h (by decide)⟩
      · exact ⟨rfl, fun h => absurd h (by decide)⟩
    | .plain .. => rw [hl] at hsv; exact hsv.elim
    | .gen u r t =>
      rw [hl] at hlab
      obtain ⟨hu, hr, ht⟩ := hlab
      have hx := ctxText_names hu hr ht
      have e1 : (LabelText.gen u r t).render ++ eol =
          cs!"gen_context(" ++ (u ++ ':' :: (r ++ ':' :: t) ++ ')' :: eol) := by
        simp [LabelText.render]
      rw [e1, if_pos ⟨_, rfl⟩]
      show Option.map _ (genContextText _) = _ ∧ _
      refine ⟨by rw [show List.drop 12 _ = u ++ ':' :: (r ++ ':' :: t) ++ ')' :: eol from rfl,
        genContextText_gen hx hcomma]; rfl, fun _ => ?_⟩
      intro ctx s1 level s2 category s3 h1 h2 h3
      rw [show List.drop 12 _ = u ++ ':' :: (r ++ ':' :: t) ++ ')' :: eol from rfl, tokens_gen hx hcomma] at h1
      injection h1 with h1
      injection h1 with _ h1
      subst h1; cases h2
    | .genLevel u r t w s =>
      rw [hl] at hlab
      obtain ⟨hu, hr, ht, hw, hs⟩ := hlab
      have hx := ctxText_names hu hr ht
      have e1 : (LabelText.genLevel u r t w s).render ++ eol =
          cs!"gen_context(" ++ (u ++ ':' :: (r ++ ':' :: t) ++ ',' :: (w ++ s ++ ')' :: eol)) := by
        simp [LabelText.render]
      rw [e1, if_pos ⟨_, rfl⟩]
      refine ⟨by rw [show List.drop 12 _ = u ++ ':' :: (r ++ ':' :: t) ++ ',' :: (w ++ s ++ ')' :: eol) from rfl,
        genContextText_level hx hcomma hw hs]; rfl, fun _ => ?_⟩
      intro ctx s1 level s2 category s3 h1 h2 h3
      rw [show List.drop 12 _ = u ++ ':' :: (r ++ ':' :: t) ++ ',' :: (w ++ s ++ ')' :: eol) from rfl,
        tokens_ctx hx] at h1
      injection h1 with h1
      injection h1 with _ h1
      subst h1
      rw [tokens_level hcomma hw hs] at h2
      injection h2 with h2
      injection h2 with _ h2
      subst h2; cases h3
    | .genCategory u r t w s w' k =>
      rw [hl] at hlab hsv
      obtain ⟨hu, hr, ht, hw, hs, hw', hk⟩ := hlab
      have hx := ctxText_names hu hr ht
      have e1 : (LabelText.genCategory u r t w s w' k).render ++ eol =
          cs!"gen_context(" ++ (u ++ ':' :: (r ++ ':' :: t) ++ ',' :: (w ++ s ++ ',' :: (w' ++ k ++ ')' :: eol))) := by
        simp [LabelText.render]
      rw [e1, if_pos ⟨_, rfl⟩]
      refine ⟨by rw [show List.drop 12 _ = u ++ ':' :: (r ++ ':' :: t) ++ ',' :: (w ++ s ++ ',' :: (w' ++ k ++ ')' :: eol)) from rfl,
        genContextText_category hx hcomma hw hs hw' hk hsv]; rfl, fun _ => ?_⟩
      intro ctx s1 level s2 category s3 h1 h2 h3
      rw [show List.drop 12 _ = u ++ ':' :: (r ++ ':' :: t) ++ ',' :: (w ++ s ++ ',' :: (w' ++ k ++ ')' :: eol)) from rfl,
        tokens_ctx hx] at h1
      injection h1 with h1
      injection h1 with _ h1
      subst h1
      rw [tokens_level_comma hw hs] at h2
      injection h2 with h2
      injection h2 with h2 h2'
      subst h2 h2'
      rw [tokens_level hcomma hw' hk] at h3
      injection h3 with h3
      injection h3 with h3 _
      subst h3
      have : ((w ++ s).takeWhile (· ≠ ')')).length ≤ (w ++ s).length := by
        exact List.Sublist.length_le (List.takeWhile_sublist _)
      unfold SurvivesNewline at hsv
      simp only [List.length_append] at this hsv ⊢
      omega
  rw [parseFcLine_text, heq.1]
  refine ⟨?_, ?_, ?_⟩
  · intro c hc
    rcases List.mem_append.1 hc with hc | hc
    · exact render_no_nul h c hc
    · have : ∀ c ∈ eol, c ≠ '\x00' := by rcases heol with rfl | rfl <;> decide
      exact this c hc
  · intro a b _ e
    have := congrArg List.getLast? e
    rcases heol with rfl | rfl <;> simp [List.getLast?_append] at this
  · intro path cls s hs hg
    rw [hsp] at hs
    injection hs with hs
    injection hs with _ hs
    injection hs with _ hs
    subst hs
    exact heq.2 hg

/-- An entry that meets the hypotheses of `C35_round_trip_partial`: an object class, a level and
a category. -/
def exEntryText : EntryText :=
  ⟨[], cs!"/etc/x(/.*)?", cs!"\t", some ('-', cs!"\t"),
    .genCategory cs!"system_u" cs!"object_r" cs!"etc_t" cs!" " cs!"s0" [] cs!"c0.c1023"⟩

theorem exEntryText_wf : exEntryText.WF where
  lead := by decide
  path := ⟨by decide, by decide⟩
  gap := ⟨by decide, by decide⟩
  cls := by
    intro c g h
    injection h with h
    injection h with h1 h2
    subst h1 h2
    exact ⟨by decide, by decide, by decide, by decide⟩
  label := ⟨⟨by decide, by decide, by decide⟩, ⟨by decide, by decide, by decide⟩,
    ⟨by decide, by decide, by decide⟩, by decide, ⟨by decide, by decide⟩, by decide, ⟨by decide, by decide⟩⟩

example : parseFcLine (lineBuf cs!"/etc/x(/.*)?\t--\tgen_context(system_u:object_r:etc_t, s0,c0.c1023)\n" []) =
    .ok (some ⟨cs!"/etc/x(/.*)?", some '-', some ⟨true, cs!"system_u", cs!"object_r", cs!"etc_t", some cs!"s0:c0.c1023"⟩⟩) :=
  C35_round_trip_partial exEntryText exEntryText_wf cs!"\n" (.inl rfl) [] (by simp [SurvivesNewline, exEntryText])

/-- C35 is false for categories in general: a space after the first comma only is enough for
a correct line to be rejected. -/
theorem C35_false_category :
    ¬ ∀ e : EntryText, e.WF → (∃ u r t w s w' k, e.label = .genCategory u r t w s w' k) →
      parseFcLine (lineBuf (e.render ++ cs!"\n") []) = .ok (some e.entry) := by
  intro h
  have := h ⟨[], cs!"/x", cs!" ", none, .genCategory cs!"u" cs!"r" cs!"t" cs!" "
      cs!"mls_systemhigh" [] cs!"mcs_systemhigh"⟩
    { lead := by decide
      path := ⟨by decide, by decide⟩
      gap := ⟨by decide, by decide⟩
      cls := fun _ _ h => nomatch h
      label := ⟨⟨by decide, by decide, by decide⟩, ⟨by decide, by decide, by decide⟩,
        ⟨by decide, by decide, by decide⟩, by decide, ⟨by decide, by decide⟩, by decide,
        ⟨by decide, by decide⟩⟩ } ⟨_, _, _, _, _, _, _, rfl⟩
  revert this
  decide +kernel

/-- The label with `eol` attached to its last part. -/
def plainWith (u r t : Str) (m : Option Str) (eol : Str) : SelContext :=
  match m with
  | none => ⟨false, u, r, t ++ eol, none⟩
  | some m => ⟨false, u, r, t, some (m ++ eol)⟩

/-- Plain contexts (not in a `gen_context` call): whatever ends the line becomes a part of the
type, or of the range if there is one. -/
theorem C35_plain_keeps_end_of_line (e : EntryText) (h : e.WF) (u r t : Str) (m : Option Str)
    (hl : e.label = .plain u r t m) (eol : Str)
    (heol : eol = [] ∨ eol = cs!"\n" ∨ eol = cs!"\r\n") (tail : LineBytes) :
    parseFcLine (lineBuf (e.render ++ eol) tail) =
      .ok (some ⟨e.path, e.cls.map (·.1), some (plainWith u r t m eol)⟩) := by
  have hsp := splitLine_render h eol
  have heolc : ∀ c ∈ eol, c ≠ ':' ∧ c ≠ '(' := by rcases heol with rfl | rfl | rfl <;> decide
  have hlab := h.label
  rw [hl] at hlab hsp
  obtain ⟨hu, hr, ht, hm⟩ := hlab
  have app : ∀ {s : Str}, IsName s → ∀ c ∈ s ++ eol, c ≠ ':' ∧ c ≠ '(' := by
    intro s hs c hc
    rcases List.mem_append.1 hc with hc | hc
    · exact hs.colon c hc
    · exact heolc c hc
  have hctx : contextText ((LabelText.plain u r t m).render ++ eol) = some (plainWith u r t m eol) := by
    cases m with
    | none =>
      have := contextText_three hu.nonempty hr.nonempty (t := t ++ eol) (by simp [ht.nonempty]) hu.colon hr.colon (app ht)
      simpa [LabelText.render, plainWith] using this
    | some m =>
      have := contextText_four hu.nonempty hr.nonempty ht.nonempty (m := m ++ eol)
        (by simp [(hm m rfl).nonempty]) hu.colon hr.colon ht.colon (app (hm m rfl))
      simpa [LabelText.render, plainWith] using this
  have hparen : '(' ∉ (LabelText.plain u r t m).render ++ eol := by
    intro hp
    simp only [contextText, if_pos hp] at hctx
    cases hctx
  have hng : ¬ cs!"gen_context(" <+: (LabelText.plain u r t m).render ++ eol :=
    fun hg => hparen (hg.subset (by decide))
  have hcolon : ':' ∈ (LabelText.plain u r t m).render ++ eol := by
    cases m <;> simp [LabelText.render]
  rw [parseFcLine_text, entryText_split hsp]
  · unfold labelEntry
    rw [if_neg hng, if_neg, hctx]
    · rfl
    · rintro (e | e) <;> rw [e] at hcolon <;> revert hcolon <;> decide
  · refine ⟨?_, ?_, ?_⟩
    · intro c hc
      rcases List.mem_append.1 hc with hc | hc
      · exact render_no_nul h c hc
      · have : ∀ c ∈ eol, c ≠ '\x00' := by rcases heol with rfl | rfl | rfl <;> decide
        exact this c hc
    · intro a b hb he
      -- the last two characters belong to the label, which has no blanks
      have nb : ∀ c ∈ (LabelText.plain u r t m).render ++ eol, blank c = false := by
        intro c hc
        rcases List.mem_append.1 hc with hc | hc
        · have n : ∀ {s : Str}, IsName s → ∀ c ∈ s, blank c = false := fun hs c hc => (hs.chars c hc).2.2.2.2.2
          cases m with
          | none =>
            simp only [LabelText.render, List.mem_append, List.mem_cons] at hc
            rcases hc with (hc | rfl | hc) | rfl | hc
            · exact n hu c hc
            · rfl
            · exact n hr c hc
            · rfl
            · exact n ht c hc
          | some m =>
            simp only [LabelText.render, List.mem_append, List.mem_cons] at hc
            rcases hc with ((hc | rfl | hc) | rfl | hc) | rfl | hc
            · exact n hu c hc
            · rfl
            · exact n hr c hc
            · rfl
            · exact n ht c hc
            · rfl
            · exact n (hm m rfl) c hc
        · have : ∀ c ∈ eol, blank c = false := by rcases heol with rfl | rfl | rfl <;> decide
          exact this c hc
      obtain ⟨p, hp⟩ := splitLine_suffix hsp
      rw [hp] at he
      have hlen : 2 ≤ ((LabelText.plain u r t m).render ++ eol).length := by
        cases m <;> simp [LabelText.render] <;> omega
      have h2 : [b, '-'] <:+ (LabelText.plain u r t m).render ++ eol :=
        List.suffix_of_suffix_length_le ⟨a, he.symm⟩ ⟨p, rfl⟩ hlen
      have := nb b (h2.subset (by simp))
      rw [hb] at this; cases this
    · intro path cls s hs hg
      rw [hsp] at hs
      injection hs with hs
      injection hs with _ hs
      injection hs with _ hs
      subst hs
      exact absurd hg hng

/-- A plain context on the last line of a file that does not end in a newline is read as
written. -/
theorem C35_plain_last_line (e : EntryText) (h : e.WF) (u r t : Str) (m : Option Str)
    (hl : e.label = .plain u r t m) (tail : LineBytes) :
    parseFcLine (lineBuf e.render tail) = .ok (some e.entry) := by
  have := C35_plain_keeps_end_of_line e h u r t m hl [] (.inl rfl) tail
  rw [List.append_nil] at this
  rw [this, EntryText.entry, hl]
  cases m <;> simp [plainWith, LabelText.context]

/-- C35 is false for plain contexts: the newline becomes a part of the type. -/
theorem C35_false_plain :
    ¬ ∀ e : EntryText, e.WF → (∃ u r t m, e.label = .plain u r t m) →
      parseFcLine (lineBuf (e.render ++ cs!"\n") []) = .ok (some e.entry) := by
  intro h
  have := h ⟨[], cs!"/x", cs!" ", none, .plain cs!"u" cs!"r" cs!"t" none⟩
    { lead := by decide
      path := ⟨by decide, by decide⟩
      gap := ⟨by decide, by decide⟩
      cls := fun _ _ h => nomatch h
      label := ⟨⟨by decide, by decide, by decide⟩, ⟨by decide, by decide, by decide⟩,
        ⟨by decide, by decide, by decide⟩, fun _ h => nomatch h⟩ } ⟨_, _, _, _, rfl⟩
  revert this
  decide +kernel

/-! ## C37 -/

/-- The lines the parser skips are the ignored ones of the specification. -/
theorem fcSkipped_iff (inp : FcInput) (macros : List Str) :
    fcSkipped inp.len inp.text macros = true ↔ Spec.IgnoredFcLine macros inp.len inp.text := by
  have hmac : checkForFcMacro inp.text macros = true ↔ ∃ m ∈ macros, m ++ ['('] <+: inp.text := by
    unfold checkForFcMacro
    simp only [List.any_eq_true, Bool.and_eq_true, decide_eq_true_eq, beq_iff_eq, List.isPrefixOf_iff_prefix]
    constructor
    · rintro ⟨m, hm, ⟨h1, h2⟩, ⟨r, hr⟩⟩
      refine ⟨m, hm, ?_⟩
      rw [← hr] at h2 ⊢
      rw [List.getElem?_append_right (Nat.le_refl _), Nat.sub_self] at h2
      cases r with
      | nil => simp at h2
      | cons x r =>
        simp at h2
        exact ⟨r, by simp [h2]⟩
    · rintro ⟨m, hm, r, hr⟩
      refine ⟨m, hm, ⟨?_, ?_⟩, ⟨'(' :: r, by simpa using hr⟩⟩
      · rw [← hr]; simp
      · rw [← hr]; simp
  unfold fcSkipped Spec.IgnoredFcLine Spec.m4Starts
  simp only [Bool.or_eq_true, hmac, decide_eq_true_eq, beq_iff_eq, List.isPrefixOf_iff_prefix,
    List.mem_cons, List.not_mem_nil, or_false, exists_eq_or_imp, exists_eq_left, or_assoc]
  have : inp.text.head? = some '#' ↔ ['#'] <+: inp.text := by
    cases inp.text with
    | nil => simp
    | cons x r => simp [List.cons_prefix_cons, eq_comm]
  rw [this]

/-- The node of a line: the entry it parses to, or an error node. -/
def NodeOfLine (inp : FcInput) (d : NodeData) : Prop :=
  (∃ e, d = .fc e ∧ parseFcLine (lineBuf inp.text inp.tail) = .ok (some e)) ∨
    (d = .plain .error none ∧ parseFcLine (lineBuf inp.text inp.tail) = .ok none)

theorem fcNode_ok {inp : FcInput} {k : Nat} {n : FcNode} (h : fcNode inp k = .ok n) :
    n.lineno = k ∧ NodeOfLine inp n.data := by
  unfold fcNode at h
  match hp : parseFcLine (lineBuf inp.text inp.tail) with
  | .ub => rw [hp] at h; cases h
  | .ok none => rw [hp] at h; cases h; exact ⟨rfl, .inr ⟨rfl, hp⟩⟩
  | .ok (some e) => rw [hp] at h; cases h; exact ⟨rfl, .inl ⟨e, rfl, hp⟩⟩

theorem keptLines_cons {α : Type} (ignored : α → Prop) (n : Nat) (x : α) (xs : List α) :
    Spec.keptLines ignored n (x :: xs) =
      (open Classical in if ignored x then [] else [n]) ++ Spec.keptLines ignored (n + 1) xs := by
  classical
  unfold Spec.keptLines
  by_cases h : ignored x <;> simp [List.range'_succ, h]

theorem parseFcLines_ok (macros : List Str) (lines : List FcInput) (n : Nat) (body : List FcNode)
    (h : parseFcLines macros lines n = .ok body) :
    body.map (·.lineno) = Spec.keptLines (fun i => Spec.IgnoredFcLine macros i.len i.text) (n + 1) lines ∧
      ∀ x ∈ body, ∃ k inp, x.lineno = n + 1 + k ∧ lines[k]? = some inp ∧ NodeOfLine inp x.data := by
  induction lines generalizing n body with
  | nil => cases h; exact ⟨rfl, by simp⟩
  | cons inp rest ih =>
    rw [parseFcLines] at h
    rw [keptLines_cons]
    by_cases hs : fcSkipped inp.len inp.text macros = true
    · rw [if_pos hs] at h
      obtain ⟨h1, h2⟩ := ih _ _ h
      rw [if_pos ((fcSkipped_iff inp macros).1 hs), h1]
      refine ⟨rfl, fun x hx => ?_⟩
      obtain ⟨k, i, e1, e2, e3⟩ := h2 x hx
      exact ⟨k + 1, i, by omega, by simpa using e2, e3⟩
    · rw [if_neg hs] at h
      rw [if_neg (fun hi => hs ((fcSkipped_iff inp macros).2 hi))]
      match hn : fcNode inp (n + 1), hr : parseFcLines macros rest (n + 1) with
      | .ub, _ => rw [hn] at h; cases h
      | .ok a, .ub => rw [hn, hr] at h; cases h
      | .ok a, .ok b =>
        rw [hn, hr] at h
        cases h
        obtain ⟨h1, h2⟩ := ih _ _ hr
        obtain ⟨h3, h4⟩ := fcNode_ok hn
        refine ⟨by simp [h1, h3], fun x hx => ?_⟩
        rcases List.mem_cons.1 hx with rfl | hx
        · exact ⟨0, inp, by omega, rfl, h4⟩
        · obtain ⟨k, i, e1, e2, e3⟩ := h2 x hx
          exact ⟨k + 1, i, by omega, by simpa using e2, e3⟩

/-- C37: if the file is parsed (no undefined behaviour), the result is the file node followed by
exactly one node for each line that is not ignored. The nodes come in the order of the lines,
each has the number of its line, and it is the entry that the line parses to, or an error node
if the line does not parse. -/
theorem C37_lines (macros : List Str) (lines : List FcInput) (ns : List FcNode)
    (h : parseFcFile macros (some lines) = .ok (some ns)) :
    ∃ body, ns = ⟨.plain .fcFile none, 0⟩ :: body ∧
      body.map (·.lineno) = Spec.keptLines (fun i => Spec.IgnoredFcLine macros i.len i.text) 1 lines ∧
      ∀ n ∈ body, ∃ inp, Spec.IsLine lines n.lineno inp ∧ NodeOfLine inp n.data := by
  unfold parseFcFile at h
  match hb : parseFcLines macros lines 0 with
  | .ub => simp only [hb] at h; cases h
  | .ok body =>
    simp only [hb] at h
    cases h
    obtain ⟨h1, h2⟩ := parseFcLines_ok macros lines 0 body hb
    refine ⟨body, rfl, h1, fun n hn => ?_⟩
    obtain ⟨k, i, e1, e2, e3⟩ := h2 n hn
    exact ⟨i, ⟨by omega, by rw [e1]; simpa using e2⟩, e3⟩

/-- C37: a file that cannot be opened gives no tree. -/
theorem C37_no_file (macros : List Str) : parseFcFile macros none = .ok none := rfl

/-- C37: parsing succeeds for every file whose lines are ignored or tame. -/
theorem C37_parses (macros : List Str) (lines : List FcInput)
    (h : ∀ i ∈ lines, Spec.IgnoredFcLine macros i.len i.text ∨ Spec.Tame i.text) :
    ∃ ns, parseFcFile macros (some lines) = .ok (some ns) := by
  have key : ∀ n, ∃ body, parseFcLines macros lines n = .ok body := by
    induction lines with
    | nil => exact fun _ => ⟨[], rfl⟩
    | cons inp rest ih =>
      intro n
      obtain ⟨body, hb⟩ := ih (fun i hi => h i (by simp [hi])) (n + 1)
      rw [parseFcLines]
      by_cases hs : fcSkipped inp.len inp.text macros = true
      · exact ⟨body, by rw [if_pos hs, hb]⟩
      · rw [if_neg hs, hb]
        have ht := (h inp (by simp)).resolve_left fun hi => hs ((fcSkipped_iff inp macros).2 hi)
        unfold fcNode
        rw [parseFcLine_text inp.tail ht]
        cases Spec.entryText inp.text <;> exact ⟨_, rfl⟩
  obtain ⟨body, hb⟩ := key 0
  exact ⟨_, by simp only [parseFcFile, hb]; rfl⟩

/-- A file with a comment, an m4 construct, a macro call, an entry and a line that does not
parse. -/
example : parseFcFile [cs!"my_macro"] (some
    [⟨cs!"# files\n", 8, []⟩, ⟨cs!"ifdef(`distro_debian',`\n", 24, []⟩,
     ⟨cs!"/x\t<<none>>\n", 12, []⟩, ⟨cs!"my_macro(x)\n", 12, []⟩, ⟨cs!"/y\n", 3, []⟩,
     ⟨cs!"')\n", 3, []⟩, ⟨cs!"\n", 1, []⟩]) =
    .ok (some [⟨.plain .fcFile none, 0⟩, ⟨.fc ⟨cs!"/x", none, none⟩, 3⟩, ⟨.plain .error none, 5⟩]) := by
  decide +kernel

end Selint
