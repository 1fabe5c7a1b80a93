import Verif.Lemmas.SyntaxOutput
import Verif.Props.SyntaxMessages
import Verif.Props.LineCache
import Verif.Props.Source
/-!
# C100: what is printed about a syntax error shows the place of the error

The place of a syntax error is that of C97; the pictures are those of C84.
-/

namespace Selint
open Spec Lr

theorem Lr.kindAt_plain (ts : Scanned) (n : Nat) :
    kindAt (plainTokens ts) n = ((ts.kinds)[n]?).getD .eof := by
  rw [kindAt, termsOf_plain]

/-- Where `yyparse` is when the tables have no entry. -/
theorem Lr.Locates.here {ts : Scanned} {fin : Location × LineCache} {p : Locating} {pre look : Scanned}
    {stk : List (Nat × Sym)} {segs : List Scanned} (h : Locates ts fin p pre look stk segs) {e : Entry}
    (he : p.d.l.c.look = some e) :
    p.look = locationAt ts fin pre.length ∧ p.cache = cacheAt ts fin pre.length ∧
      headAt fin.1 (look ++ p.input) = locationAt ts fin pre.length ∧
      plainTokens pre ++ (plainTokens look ++ p.d.input) = plainTokens ts ∧
      p.d.input = (plainTokens ts).drop (pre.length + 1) := by
  have hl := h.looks
  have hget : ts[pre.length]? = (look ++ p.input).head? := by
    rw [h.all, List.getElem?_append_right (Nat.le_refl _), Nat.sub_self, List.head?_eq_getElem?]
  simp only [Locating.Looks, he] at hl
  have hpl : plainTokens pre ++ (plainTokens look ++ p.d.input) = plainTokens ts := by
    rw [h.all, h.input]
    simp [plainTokens]
  have hlen : (plainTokens pre).length = pre.length := by simp [plainTokens]
  refine ⟨?_, ?_, ?_, hpl, ?_⟩
  · simp only [locationAt, hget]
    rcases hl with ⟨rfl, hi, -, h₁, -⟩ | ⟨t, rfl, -⟩
    · rw [hi, h₁]; rfl
    · rfl
  · simp only [cacheAt, hget]
    rcases hl with ⟨rfl, hi, -, -, h₁⟩ | ⟨t, rfl, -⟩
    · rw [hi, h₁]; rfl
    · rfl
  · simp only [headAt, locationAt, hget]
  · rw [← hpl]
    rcases hl with ⟨rfl, hi, -, -, -⟩ | ⟨t, rfl, -⟩
    · rw [h.input, hi]
      simp [plainTokens]
    · rw [← List.drop_drop, List.drop_left' hlen]
      rfl

/-- **C100 (output).** All that is printed when the tables have no entry for a token: `yyerror` is
called with the location of the token at C97's place and the lines kept when it was read, and the
message of C98; then, unless there is no statement around it, once more with a location that begins
with a token not behind it, where any statement may begin, and ends with the same token. -/
theorem C100_output {m₀ : Mem} {expected : PlainFlavor} {mod : Str} {maps : Maps} {before : Location}
    {fin : Location × LineCache} {ts : Scanned} {p : Locating}
    (h : LocatingReaches before fin (Locating.start m₀ expected mod maps before ts) p) {e : Entry} {s : Nat}
    {rest : List Nat} (he : p.d.l.c.look = some e) (hst : p.d.states = s :: rest)
    (ha : lalrAction s e.sym.code = none) (color : Bool) (filename endName : Str) :
    ∃ (n : Nat) (names : List Term) (first : Res Str), ErrorAfter n ts.kinds ∧
      names.length ≤ 4 ∧ (∀ x ∈ names, MayFollow (ts.kinds.take n) x) ∧
      first = yyerror color filename (cacheAt ts fin n) (locationAt ts fin n)
        (cs!"syntax error, unexpected " ++ (((ts.kinds)[n]?).getD .eof).name endName ++
          expects (names.map (Term.name endName))) ∧
      (p.output color filename endName = first ∨
        ∃ k, k ≤ n ∧ StatementMayFollow (ts.kinds.take k) ∧
          p.output color filename endName = (do
            let a ← first
            let b ← yyerror color filename (cacheAt ts fin n)
              (fromTo (locationAt ts fin k) (locationAt ts fin n)) cs!"Error: Invalid statement"
            .ok (a ++ b))) := by
  obtain ⟨pre, look, stk, segs, hm⟩ := Locates.reaches h
  have hd := locating_drive h
  obtain ⟨hlk, hca, hhead, -, hin⟩ := hm.here he
  obtain ⟨n, names, hn, hmsg, h4, -, hmay, -⟩ := C98_message hd he hst ha endName fin.1.firstLine
  obtain ⟨n', hn', hin', -⟩ := C97_place hd he hst ha
  have hnn := C97_unique hn hn'
  subst hnn
  have hterms : termsOf (ts.map fun x => (x.1.firstLine, x.2.1)) = ts.kinds := termsOf_plain ts
  have hsym : e.sym = .t ((ts.kinds[n]?).getD .eof) := by
    obtain ⟨pre', look', stk', segs', hr⟩ := Reads.reaches hd
    have hn₂ := C97_unique hn (hr.errorAfter he hst ha)
    obtain ⟨hk, -⟩ := hr.here he 0
    rw [← hn₂] at hk
    rw [hk, ← hterms]
    rfl
  have hpre : n = pre.length := by
    obtain ⟨pre', look', stk', segs', hr⟩ := Reads.reaches hd
    have hn₂ := C97_unique hn (hr.errorAfter he hst ha)
    subst hn₂
    have h₁ := congrArg List.length hr.all
    have h₂ := congrArg List.length hm.all
    have h₃ := congrArg List.length hm.input
    have hl₁ := hr.looks
    have hl₂ := hm.looks
    simp only [Drive.Looks, Locating.Looks, he] at hl₁ hl₂
    simp only [List.length_append, List.length_map, plainTokens] at h₁ h₂ h₃
    rcases hl₁ with ⟨rfl, e₁, hi₁⟩ | ⟨t₁, rfl, e₁⟩
    · rcases hl₂ with ⟨rfl, hi₂, e₂, -⟩ | ⟨t₂, rfl, e₂⟩
      · simp only [List.length_nil] at h₁ h₂
        omega
      · rw [e₁] at e₂
        exact absurd (Sym.t.inj e₂).symm (term_ne_eof t₂)
    · rcases hl₂ with ⟨rfl, hi₂, e₂, -⟩ | ⟨t₂, rfl, e₂⟩
      · rw [e₂] at e₁
        exact absurd (Sym.t.inj e₁).symm (term_ne_eof t₁)
      · simp only [List.length_cons, List.length_nil] at h₁ h₂
        omega
  subst hpre
  rw [hterms] at hn hmay
  refine ⟨pre.length, names, _, hn, h4, hmay, rfl, ?_⟩
  obtain ⟨sym, v⟩ := e
  have hsym : sym = .t ((ts.kinds[pre.length]?).getD .eof) := hsym
  subst hsym
  generalize hx : (ts.kinds[pre.length]?).getD .eof = x at *
  have hmsg' : syntaxMessage endName s x = cs!"syntax error, unexpected " ++ x.name endName ++
      expects (names.map (Term.name endName)) := by
    have ha : lalrAction s x.code = none := ha
    simp only [Drive.syntaxErrors, he, hst, if_pos ha, List.head?_cons, Option.some.injEq,
      Prod.mk.injEq] at hmsg
    rw [hmsg.2, kindAt, hterms, hx]
  have ha : lalrAction s x.code = none := ha
  simp only [Locating.output, he, hst, if_pos ha, hmsg']
  rw [← hst, hlk, hca]
  cases hrec : recoverPlace p.d.states p.locs (locationAt ts fin pre.length) with
  | none =>
    left
    cases yyerror color filename (cacheAt ts fin pre.length) (locationAt ts fin pre.length)
      (cs!"syntax error, unexpected " ++ x.name endName ++ expects (names.map (Term.name endName))) <;> rfl
  | some l =>
    right
    rw [hm.states] at hrec
    obtain ⟨us, vs, h₁, h₂, h₃, h₄⟩ := hm.stood.recovers (endLoc := fin.1) hm.linked
      (after := look ++ p.input) (fun _ => by rw [hhead]; exact ⟨rfl, rfl⟩) hrec
    rw [← hm.parts, ← hm.all] at h₁
    rw [← hm.parts] at h₂
    have hat : headAt fin.1 vs = locationAt ts fin us.length := by
      simp only [headAt, locationAt]
      rw [h₁, List.getElem?_append_right (Nat.le_refl _), Nat.sub_self, List.head?_eq_getElem?]
    refine ⟨us.length, h₂, ?_, ?_⟩
    · rw [h₁, kinds_append, List.take_left' (by simp [Scanned.kinds])]
      exact h₃
    · rw [hat] at h₄
      simp only [fromTo, h₄.1, h₄.2]

/-- What the scanner returns stands in the lines of the text. -/
theorem scan_stands {text : Str} {ls : List Str} (hls : LinesOf text ls) {before : Location}
    {ts : Scanned} {fin : Location × LineCache} (hsc : scanText text before = some (ts, fin)) :
    (∀ x ∈ ts, ∃ number pre own post, Stands ls number pre own post x.1 x.2.1 x.2.2) ∧
      EndAt ls before fin.1 ∧ KeepsLines fin.2 (ls ++ [[]]) ∧
      ts.Pairwise fun x y => x.1.firstLine ≤ y.1.firstLine := by
  obtain ⟨ts', loc, c, h1, h2, h3, h4, h5⟩ := C84_scan hls before
  rw [h1] at hsc
  cases hsc
  refine ⟨h3, h4, h5, ?_⟩
  have := (C48_sorted h2).1
  simp only [Located.Sorted, Located.lines, List.pairwise_map] at this
  exact this

theorem Spec.Stands.inside {ls : List Str} {number : Nat} {pre own post : Str} {loc : Location} {t : Token}
    {c : LineCache} (h : Stands ls number pre own post loc t c) :
    1 ≤ number ∧ number ≤ ls.length ∧ loc.firstLine = number ∧ loc.lastLine = number ∧
      KeepsLines c (ls.take number) := by
  obtain ⟨⟨h1, hl⟩, -, rfl, hk⟩ := h
  refine ⟨h1, ?_, rfl, rfl, hk⟩
  rcases Nat.lt_or_ge (number - 1) ls.length with h | h
  · omega
  · rw [List.getElem?_eq_none h] at hl; cases hl

/-- The lines between two tokens, or a token and the end of the text, have been read. -/
theorem between_read {text : Str} {ls : List Str} (hls : LinesOf text ls) {before : Location}
    {ts : Scanned} {fin : Location × LineCache} (hsc : scanText text before = some (ts, fin))
    (hts : ts ≠ []) {k n : Nat} (hkn : k ≤ n) :
    1 ≤ (locationAt ts fin k).firstLine ∧
      (locationAt ts fin k).firstLine ≤ (locationAt ts fin n).lastLine ∧
      (locationAt ts fin n).lastLine ≤ ls.length + 1 ∧
      ∃ seen, KeepsLines (cacheAt ts fin n) seen ∧ (locationAt ts fin n).lastLine ≤ seen.length := by
  obtain ⟨hst, hend, hfin, hsort⟩ := scan_stands hls hsc
  have hlen : 1 ≤ ls.length := by
    obtain ⟨x, xs, rfl⟩ := List.exists_cons_of_ne_nil hts
    obtain ⟨_, _, _, _, h⟩ := hst x (List.mem_cons_self ..)
    have := h.inside
    omega
  have hfinal : ls.length ≤ fin.1.firstLine ∧ fin.1.firstLine = fin.1.lastLine ∧
      fin.1.lastLine ≤ ls.length + 1 := by
    rcases hend with ⟨h, -⟩ | ⟨-, h⟩ | ⟨-, h, h'⟩
    · rw [h] at hlen; simp at hlen
    · rw [h]; simp
    · omega
  cases hn : ts[n]? with
  | none =>
    simp only [locationAt, cacheAt, hn, Option.map_none, Option.getD_none]
    cases hk : ts[k]? with
    | none =>
      simp only [Option.map_none, Option.getD_none]
      exact ⟨by omega, by omega, by omega, _, hfin, by simp only [List.length_append, List.length_singleton]; omega⟩
    | some x =>
      obtain ⟨number, _, _, _, h⟩ := hst x (List.mem_of_getElem? hk)
      have := h.inside
      simp only [Option.map_some, Option.getD_some]
      exact ⟨by omega, by omega, by omega, _, hfin, by simp only [List.length_append, List.length_singleton]; omega⟩
  | some y =>
    obtain ⟨a, _, _, _, hy⟩ := hst y (List.mem_of_getElem? hn)
    have hy' := hy.inside
    have hlt := (List.getElem?_eq_some_iff.1 hn)
    obtain ⟨hnl, hny⟩ := hlt
    have hk : ts[k]? = some (ts[k]'(by omega)) := List.getElem?_eq_getElem (by omega)
    obtain ⟨b, _, _, _, hx⟩ := hst _ (List.mem_of_getElem? hk)
    have hx' := hx.inside
    have hle : (ts[k]'(by omega)).1.firstLine ≤ y.1.firstLine := by
      rcases Nat.lt_or_eq_of_le hkn with h | h
      · rw [← hny]
        exact List.pairwise_iff_getElem.1 hsort k n (by omega) hnl h
      · subst h
        rw [← hny]
        exact Nat.le_refl _
    simp only [locationAt, cacheAt, hn, hk, Option.map_some, Option.getD_some]
    refine ⟨by omega, by omega, by omega, _, hy'.2.2.2.2, ?_⟩
    rw [List.length_take, Nat.min_eq_left hy'.2.1]
    omega

/-- The empty file is a file. -/
theorem sentence_nil : Sentence [] := by
  have h : rules.any (fun r => decide (r.lhs = .selinuxFile) && r.rhs.isEmpty) = true := by
    decide +kernel
  obtain ⟨r, hr, h⟩ := List.any_eq_true.1 h
  simp only [Bool.and_eq_true, decide_eq_true_eq, List.isEmpty_iff] at h
  obtain ⟨h1, h2⟩ := h
  have := Yields.production hr (us := []) (by rw [h2]; exact .nil) .nil
  rwa [h1] at this

/-- **C100 (no stray reads).** Whatever the text is, a syntax error shows no line that has not been
read: `yyerror` finds every line that it prints among those kept. -/
theorem C100_safe {text : Str} {ls : List Str} (hls : LinesOf text ls) (h32 : ls.length + 1 < 2 ^ 32)
    {m₀ : Mem} {expected : PlainFlavor} {mod : Str} {maps : Maps} {before : Location}
    {ts : Scanned} {fin : Location × LineCache} (hsc : scanText text before = some (ts, fin))
    {p : Locating} (h : LocatingReaches before fin (Locating.start m₀ expected mod maps before ts) p)
    (color : Bool) (filename endName : Str) :
    ∃ out, p.output color filename endName = .ok out := by
  cases he : p.d.l.c.look with
  | none => exact ⟨[], by simp only [Locating.output, he]⟩
  | some e =>
    cases hst : p.d.states with
    | nil => exact ⟨[], by simp only [Locating.output, he, hst]⟩
    | cons s rest =>
      by_cases ha : lalrAction s e.sym.code = none
      · obtain ⟨n, names, first, hn, -, -, rfl, hout⟩ := C100_output h he hst ha color filename endName
        have hts : ts ≠ [] := by
          rintro rfl
          refine C97_exists.1 ⟨n, hn⟩ ?_
          exact sentence_nil
        have key : ∀ {k : Nat} {msg : Str}, k ≤ n → ∃ t, yyerror color filename (cacheAt ts fin n)
            (fromTo (locationAt ts fin k) (locationAt ts fin n)) msg = .ok t := by
          intro k msg hk
          obtain ⟨h1, h2, h3, seen, hc, h4⟩ := between_read hls hsc hts hk
          exact yyerror_ok hc h1 h2 (by show (locationAt ts fin n).lastLine < _; omega) h4
        obtain ⟨t, ht⟩ := key (k := n) (msg := cs!"syntax error, unexpected " ++
          (((ts.kinds)[n]?).getD .eof).name endName ++ expects (names.map (Term.name endName))) (Nat.le_refl _)
        have hself : fromTo (locationAt ts fin n) (locationAt ts fin n) = locationAt ts fin n := rfl
        rw [hself] at ht
        rcases hout with hout | ⟨k, hk, -, hout⟩
        · exact ⟨t, by rw [hout, ht]⟩
        · obtain ⟨t', ht'⟩ := key (k := k) (msg := cs!"Error: Invalid statement") hk
          rw [hout, ht, ht']
          exact ⟨_, rfl⟩
      · refine ⟨[], ?_⟩
        obtain ⟨sym, v⟩ := e
        cases sym with
        | t x =>
          have ha : ¬ lalrAction s x.code = none := ha
          simp only [Locating.output, he, hst, if_neg ha]
        | n x => simp only [Locating.output, he, hst]

/-- **C100 (text).** A syntax error at a token (not on the first line, where columns are counted from
0, see C84), in a text whose lines can be shown: the token's own line is shown with a marker exactly
below the token; and if there is a second message, it shows the lines from a token not behind it,
where any statement may begin, to this one, as they are in the text. -/
theorem C100_text {text : Str} {ls : List Str} (hls : LinesOf text ls) (h32 : ls.length < 2 ^ 32)
    (hshow : ∀ l ∈ ls, Showable (trimRight l))
    {m₀ : Mem} {expected : PlainFlavor} {mod : Str} {maps : Maps} {before : Location}
    {ts : Scanned} {fin : Location × LineCache} (hsc : scanText text before = some (ts, fin))
    {p : Locating} (h : LocatingReaches before fin (Locating.start m₀ expected mod maps before ts) p)
    {e : Entry} {s : Nat} {rest : List Nat} (he : p.d.l.c.look = some e) (hst : p.d.states = s :: rest)
    (ha : lalrAction s e.sym.code = none) {n : Nat} (hn : ErrorAfter n ts.kinds)
    {t : Location × Token × LineCache} (ht : ts[n]? = some t) {number : Nat} {pre own post : Str}
    (hs : Stands ls number pre own post t.1 t.2.1 t.2.2) (h1 : number ≠ 1)
    (hv : ∀ x, own.head? = some x → isSpaceC x = false) (color : Bool) (filename endName : Str) :
    ∃ (names : List Term) (second : Str), p.output color filename endName = .ok (
        formatFinding color ⟨filename, number, ⟨'F', 1, cs!"syntax error, unexpected " ++
          (term t.2.1).1.name endName ++ expects (names.map (Term.name endName))⟩⟩ ++
        marked color '^' number (textLine ls number) (pre.length + 1) (pre.length + own.length) ++
        second) ∧
      (∀ x ∈ names, MayFollow (ts.kinds.take n) x) ∧
      (second = [] ∨ ∃ k t' number' pre' own' post', k ≤ n ∧ ts[k]? = some t' ∧
        StatementMayFollow (ts.kinds.take k) ∧
        Stands ls number' pre' own' post' t'.1 t'.2.1 t'.2.2 ∧ number' ≤ number ∧
        (number' ≠ 1 → (∀ x, own'.head? = some x → isSpaceC x = false) →
          second = formatFinding color ⟨filename, number', ⟨'F', 1, cs!"Error: Invalid statement"⟩⟩ ++
            shownOf color ls (fromTo t'.1 t.1))) := by
  obtain ⟨n', names, first, hn', -, hmay, rfl, hout⟩ := C100_output h he hst ha color filename endName
  have := C97_unique hn hn'
  subst this
  obtain ⟨hstands, -, -, -⟩ := scan_stands hls hsc
  have hin := hs.inside
  have hline : ∀ i, 1 ≤ i → i ≤ number → Showable (textLine ls i) := by
    intro i hi1 hi2
    have hlt : i - 1 < ls.length := by omega
    rw [textLine, List.getD_eq_getElem?_getD, List.getElem?_eq_getElem hlt]
    exact hshow _ (List.getElem_mem hlt)
  have htl : textLine ls number = trimRight (pre ++ own ++ post) := by
    rw [textLine, List.getD_eq_getElem?_getD, hs.found.2]
    rfl
  have hkind : ((ts.kinds)[n]?).getD .eof = (term t.2.1).1 := by
    simp only [Scanned.kinds, List.getElem?_map, ht]
    rfl
  have hloc : locationAt ts fin n = t.1 := by simp only [locationAt, ht]; rfl
  have hcache : cacheAt ts fin n = t.2.2 := by simp only [cacheAt, ht]; rfl
  have hshown := hline number (by omega) (Nat.le_refl _)
  rw [htl] at hshown
  rw [hloc, hcache, hkind, C84_token hs (by omega) hv hshown h1] at hout
  rw [htl]
  rcases hout with hout | ⟨k, hk, hmf, hout⟩
  · exact ⟨names, [], by rw [hout, List.append_nil], hmay, .inl rfl⟩
  · have hlt : n < ts.length := (List.getElem?_eq_some_iff.1 ht).1
    have hk' : ts[k]? = some (ts[k]'(by omega)) := List.getElem?_eq_getElem (by omega)
    obtain ⟨number', pre', own', post', hs'⟩ := hstands _ (List.mem_of_getElem? hk')
    have hkloc : locationAt ts fin k = (ts[k]'(by omega)).1 := by simp only [locationAt, hk']; rfl
    have hts : ts ≠ [] := by
      rintro rfl
      simp at hlt
    obtain ⟨g1, g2, g3, seen, hc, g4⟩ := between_read hls hsc hts hk
    rw [hloc] at g2 g4
    rw [hkloc] at g1 g2
    rw [hcache] at hc
    rw [hkloc] at hout
    have hin' := hs'.inside
    obtain ⟨b, hb⟩ := yyerror_ok (color := color) (filename := filename)
      (msg := cs!"Error: Invalid statement") (loc := fromTo (ts[k]'(by omega)).1 t.1) hc g1 g2
      (by show t.1.lastLine < _; omega) g4
    rw [hb] at hout
    refine ⟨names, b, hout, hmay, .inr ⟨k, _, number', pre', own', post', hk, hk', hmf, hs', by omega,
      fun h1' hv' => ?_⟩⟩
    have hlen : (ls.take number).length = number := by rw [List.length_take, Nat.min_eq_left hin.2.1]
    have := yyerror_from (color := color) (filename := filename) (msg := cs!"Error: Invalid statement")
      hs' hin.2.2.2.2 (by rw [hlen]; exact hin.2.2.2.1) (List.getElem?_take_of_lt (by omega))
      (by omega) h1' hv' (fun i h2 h3 => by
        rw [hlen] at h3
        have := hline i h2 h3
        unfold textLine at this ⊢
        rwa [List.getD_eq_getElem?_getD, List.getElem?_take_of_lt (by omega), ← List.getD_eq_getElem?_getD])
    have htake := shownOf_take (color := color) (ls := ls) (loc := fromTo (ts[k]'(by omega)).1 t.1) g2 g1
    rw [show (fromTo (ts[k]'(by omega)).1 t.1).lastLine = number from hin.2.2.2.1] at htake
    rw [htake, hb] at this
    exact Res.ok.inj this

/-- **C100 (end).** If the error is the end of a text that ends with a newline, the empty line behind
it is shown; and if there is a second message, it shows the lines from a token where any statement may
begin to that one. -/
theorem C100_end {text : Str} {ls : List Str} (hls : LinesOf text ls) (h32 : ls.length + 1 < 2 ^ 32)
    (hshow : ∀ l ∈ ls, Showable (trimRight l)) {last : Str} (hnl : ls.getLast? = some (last ++ ['\n']))
    {m₀ : Mem} {expected : PlainFlavor} {mod : Str} {maps : Maps} {before : Location}
    {ts : Scanned} {fin : Location × LineCache} (hsc : scanText text before = some (ts, fin))
    {p : Locating} (h : LocatingReaches before fin (Locating.start m₀ expected mod maps before ts) p)
    {e : Entry} {s : Nat} {rest : List Nat} (he : p.d.l.c.look = some e) (hst : p.d.states = s :: rest)
    (ha : lalrAction s e.sym.code = none) (hn : ErrorAfter ts.length ts.kinds)
    (color : Bool) (filename endName : Str) :
    ∃ (names : List Term) (second : Str), p.output color filename endName = .ok (
        formatFinding color ⟨filename, ls.length + 1, ⟨'F', 1, cs!"syntax error, unexpected " ++
          endName ++ expects (names.map (Term.name endName))⟩⟩ ++
        picture color '^' (ls.length + 1) [] 0 1 ++ second) ∧
      (∀ x ∈ names, MayFollow ts.kinds x) ∧
      (second = [] ∨
        second = formatFinding color
            ⟨filename, ls.length + 1, ⟨'F', 1, cs!"Error: Invalid statement"⟩⟩ ++
          picture color '^' (ls.length + 1) [] 0 1 ∨
        ∃ k t' number' pre' own' post', ts[k]? = some t' ∧ StatementMayFollow (ts.kinds.take k) ∧
          Stands ls number' pre' own' post' t'.1 t'.2.1 t'.2.2 ∧
          (number' ≠ 1 → (∀ x, own'.head? = some x → isSpaceC x = false) →
            second = formatFinding color ⟨filename, number', ⟨'F', 1, cs!"Error: Invalid statement"⟩⟩ ++
              shownOf color (ls ++ [[]])
                (fromTo t'.1 ⟨ls.length + 1, 0, ls.length + 1, 0⟩))) := by
  obtain ⟨n', names, first, hn', -, hmay, rfl, hout⟩ := C100_output h he hst ha color filename endName
  have := C97_unique hn hn'
  subst this
  obtain ⟨hstands, hend, hfin, -⟩ := scan_stands hls hsc
  have hne : ls ≠ [] := by
    rintro rfl
    cases hnl
  have hloc : fin.1 = ⟨ls.length + 1, 0, ls.length + 1, 0⟩ := by
    rcases hend with ⟨h, -⟩ | ⟨-, h⟩ | ⟨⟨a, h, h'⟩, -⟩
    · exact absurd h hne
    · exact h
    · rw [hnl] at h
      cases h
      exact absurd (by simp) h'
  have hnone : ts[ts.length]? = none := List.getElem?_eq_none (Nat.le_refl _)
  have hkind : ((ts.kinds)[ts.length]?).getD .eof = .eof := by
    simp only [Scanned.kinds, List.getElem?_map, hnone]
    rfl
  have hl : locationAt ts fin ts.length = ⟨ls.length + 1, 0, ls.length + 1, 0⟩ := by
    simp only [locationAt, hnone]
    exact hloc
  have hc : cacheAt ts fin ts.length = fin.2 := by simp only [cacheAt, hnone]; rfl
  have htake : ts.kinds.take ts.length = ts.kinds :=
    List.take_of_length_le (by simp [Scanned.kinds])
  rw [htake] at hmay
  have hone : ∀ msg, yyerror color filename fin.2 ⟨ls.length + 1, 0, ls.length + 1, 0⟩ msg =
      .ok (formatFinding color ⟨filename, ls.length + 1, ⟨'F', 1, msg⟩⟩ ++
        picture color '^' (ls.length + 1) [] 0 1) := fun msg => C84_end hfin (by omega)
  rw [hl, hc, hkind, hone] at hout
  rcases hout with hout | ⟨k, hk, hmf, hout⟩
  · exact ⟨names, [], by rw [hout, List.append_nil]; rfl, hmay, .inl rfl⟩
  · cases hk' : ts[k]? with
    | none =>
      have hkl : locationAt ts fin k = ⟨ls.length + 1, 0, ls.length + 1, 0⟩ := by
        simp only [locationAt, hk']
        exact hloc
      rw [hkl] at hout
      simp only [fromTo] at hout
      rw [hone] at hout
      exact ⟨names, _, hout, hmay, .inr (.inl rfl)⟩
    | some t' =>
      obtain ⟨number', pre', own', post', hs'⟩ := hstands _ (List.mem_of_getElem? hk')
      have hkl : locationAt ts fin k = t'.1 := by simp only [locationAt, hk']; rfl
      have hts : ts ≠ [] := by
        rintro rfl
        cases hk'
      obtain ⟨g1, g2, g3, seen, hc', g4⟩ := between_read hls hsc hts hk
      rw [hkl] at g1 g2 hout
      rw [hl] at g2 g4
      rw [hc] at hc'
      obtain ⟨b, hb⟩ := yyerror_ok (color := color) (filename := filename)
        (msg := cs!"Error: Invalid statement")
        (loc := fromTo t'.1 ⟨ls.length + 1, 0, ls.length + 1, 0⟩) hc' g1 g2 h32 g4
      rw [hb] at hout
      refine ⟨names, b, hout, hmay, .inr (.inr ⟨k, t', number', pre', own', post', hk', hmf, hs',
        fun h1' hv' => ?_⟩)⟩
      have hin' := hs'.inside
      have := yyerror_from (color := color) (filename := filename)
        (msg := cs!"Error: Invalid statement") (loc' := ⟨ls.length + 1, 0, ls.length + 1, 0⟩)
        hs' hfin (by simp) (List.getElem?_append_left (by omega)) (by simpa using h32) h1' hv'
        (fun i h2 h3 => by
          rw [textLine, List.getD_eq_getElem?_getD, List.getElem?_eq_getElem (by omega)]
          have hmem := List.getElem_mem (l := ls ++ [[]]) (n := i - 1) (by omega)
          rw [List.mem_append, List.mem_singleton] at hmem
          rcases hmem with hmem | hmem
          · exact hshow _ hmem
          · show Showable (trimRight (ls ++ [[]])[i - 1])
            rw [hmem]
            intro c hc
            cases hc)
      rw [hb] at this
      exact Res.ok.inj this

/-! ### C100 is about something -/

/-- A number of rounds. -/
def locateTo (before : Location) (fin : Location × LineCache) : Nat → Locating → Locating
  | 0, p => p
  | n + 1, p =>
    match p.step before fin with
    | some p' => locateTo before fin n p'
    | none => p

theorem locateTo_reaches {before : Location} {fin : Location × LineCache} : ∀ (n : Nat) {p₀ p : Locating},
    LocatingReaches before fin p₀ p → LocatingReaches before fin p₀ (locateTo before fin n p)
  | 0, _, _, h => h
  | n + 1, p₀, p, h => by
    simp only [locateTo]
    split
    · rename_i p' hs
      exact locateTo_reaches n (h.step hs)
    · exact h

/-- What is printed for a te file with a syntax error. -/
def printedFor (filename text : Str) : Option (Res Str) :=
  (scanText text ⟨0, 0, 0, 0⟩).map fun r =>
    (locateTo ⟨0, 0, 0, 0⟩ r.2 200 (Locating.start ⟨fun _ => none, 0⟩ .teFile cs!"m" {} ⟨0, 0, 0, 0⟩ r.1)).output
      false filename cs!"end of file"

/-- A statement without colon. -/
def exBroken : Str := cs!"policy_module(a, 1.0)\n\nallow b c d;\n"

/-- tests/functional/policies/parse_errors/test1.te and test1.output, without its last line. -/
example : printedFor cs!"test1.te" cs!"policy_module(test1, 0.0.1)\n\nallow source target cls permission;\n" =
    some (.ok (cs!"test1.te:             3: (F): syntax error, unexpected STRING, expecting COLON or SEMICOLON (F-001)\n" ++
      cs!"    3 | allow source target cls permission;\n" ++
      cs!"      |                     ^~~\n" ++
      cs!"test1.te:             3: (F): Error: Invalid statement (F-001)\n" ++
      cs!"    3 | allow source target cls permission;\n" ++
      cs!"      | ^~~~~~~~~~~~~~~~~~~~~~~\n")) := by
  decide +kernel

/-- test4.te and test4.output. -/
example : printedFor cs!"test4.te" cs!"allo\x01\n" =
    some (.ok (cs!"test4.te:             1: (F): syntax error, unexpected STRING, expecting end of file (F-001)\n" ++
      cs!"    1 | allo!\n" ++
      cs!"Warning: Line in question contains unprintable character at position 5: 0x01\n")) := by
  decide +kernel

/-- test5.output. -/
example : printedFor cs!"test5_tmp.te" cs!"policy_module(test5, 1.0)\n\n\nallow\n\tsource\ntarget\n  clas\n" =
    some (.ok (cs!"test5_tmp.te:         7: (F): syntax error, unexpected STRING, expecting COLON or SEMICOLON (F-001)\n" ++
      cs!"    7 |   clas\n" ++
      cs!"      |   ^~~~\n" ++
      cs!"test5_tmp.te:         4: (F): Error: Invalid statement (F-001)\n" ++
      cs!"    4 | allow\n" ++
      cs!"      | ^~~~~\n" ++
      cs!"    5 |     source\n" ++
      cs!"      |     ~~~~~~\n" ++
      cs!"    6 | target\n" ++
      cs!"      | ~~~~~~\n" ++
      cs!"    7 |   clas\n" ++
      cs!"      |   ~~~~\n")) := by
  decide +kernel

/-- test9.te and test9.output. -/
example : printedFor cs!"test9.te" cs!"policy_module(test9, 1.0)\n\nifdef(\n" =
    some (.ok (cs!"test9.te:             4: (F): syntax error, unexpected end of file, expecting BACKTICK (F-001)\n" ++
      cs!"    4 |\n" ++
      cs!"      | ^\n" ++
      cs!"test9.te:             3: (F): Error: Invalid statement (F-001)\n" ++
      cs!"    3 | ifdef(\n" ++
      cs!"      | ^~~~~~\n" ++
      cs!"    4 |\n" ++
      cs!"      | ~\n")) := by
  decide +kernel

/-- **C100 (without newline).** If the text ends without a newline and the error is its end, other
lines are shown than those that are named: here line 4 is said to be empty and line 3 to be `  b`,
which is line 4. -/
theorem C100_unterminated : printedFor cs!"a.te" cs!"policy_module(a, 1.0)\n\nallow\n  b" =
    some (.ok (cs!"a.te:                 4: (F): syntax error, unexpected end of file (F-001)\n" ++
      cs!"    4 |\n" ++
      cs!"      |   ^\n" ++
      cs!"a.te:                 3: (F): Error: Invalid statement (F-001)\n" ++
      cs!"    3 |   b\n" ++
      cs!"      | ^~~\n" ++
      cs!"    4 |\n" ++
      cs!"      | ~~~\n")) := by
  decide +kernel

/-- A text that meets the hypotheses of `C100_text`. -/
example : ∃ (ls : List Str) (ts : Scanned) (fin : Location × LineCache) (p : Locating) (e : Entry) (s : Nat)
    (rest : List Nat) (n : Nat) (t : Location × Token × LineCache) (number : Nat) (pre own post : Str),
    LinesOf exBroken ls ∧ (∀ l ∈ ls, Showable (trimRight l)) ∧
    scanText exBroken ⟨0, 0, 0, 0⟩ = some (ts, fin) ∧
    LocatingReaches ⟨0, 0, 0, 0⟩ fin
      (Locating.start ⟨fun _ => none, 0⟩ .teFile cs!"m" {} ⟨0, 0, 0, 0⟩ ts) p ∧
    p.d.l.c.look = some e ∧ p.d.states = s :: rest ∧ lalrAction s e.sym.code = none ∧
    ErrorAfter n ts.kinds ∧ ts[n]? = some t ∧
    Stands ls number pre own post t.1 t.2.1 t.2.2 ∧ number = 3 := by
  have hls : LinesOf exBroken [cs!"policy_module(a, 1.0)\n", cs!"\n", cs!"allow b c d;\n"] :=
    .line (l := cs!"policy_module(a, 1.0)") (by decide) (.line (l := []) (by decide)
      (.line (l := cs!"allow b c d;") (by decide) .nil))
  obtain ⟨ts, loc, c, hsc, -, hst, -⟩ := C84_scan hls ⟨0, 0, 0, 0⟩
  have hts : ts = ((scanText exBroken ⟨0, 0, 0, 0⟩).map (·.1)).getD [] := by rw [hsc]; rfl
  have hreach := locateTo_reaches (fin := (loc, c)) 200 (LocatingReaches.refl (before := ⟨0, 0, 0, 0⟩)
    (fin := (loc, c)) (p₀ := Locating.start ⟨fun _ => none, 0⟩ .teFile cs!"m" {} ⟨0, 0, 0, 0⟩ ts))
  generalize hp : locateTo ⟨0, 0, 0, 0⟩ (loc, c) 200
    (Locating.start ⟨fun _ => none, 0⟩ .teFile cs!"m" {} ⟨0, 0, 0, 0⟩ ts) = p at hreach
  have hfin : (loc, c) = ((scanText exBroken ⟨0, 0, 0, 0⟩).map (·.2)).getD (⟨0, 0, 0, 0⟩, .fresh) := by
    rw [hsc]; rfl
  rw [hfin, hts] at hp
  have hlook : p.d.l.c.look.map Entry.sym = some (.t .string) := by rw [← hp]; decide +kernel
  have hact : (p.d.states.head?.map fun s => lalrAction s (Term.code .string)) = some none := by
    rw [← hp]; decide +kernel
  cases he : p.d.l.c.look with
  | none => rw [he] at hlook; cases hlook
  | some e =>
    rw [he] at hlook
    have hsym : e.sym = .t .string := by simpa using hlook
    cases hss : p.d.states with
    | nil => rw [hss] at hact; cases hact
    | cons s rest =>
      rw [hss] at hact
      have ha : lalrAction s e.sym.code = none := by
        rw [hsym]
        exact Option.some.inj hact
      obtain ⟨n, hn, hdrop, -⟩ := C97_place (locating_drive hreach) he hss ha
      have hlen : ts.length = 11 := by rw [hts]; decide +kernel
      have hn9 : n = 9 := by
        have h₁ := congrArg List.length hdrop
        have h₂ : p.d.input.length = 1 := by rw [← hp]; decide +kernel
        rw [h₂, List.length_drop] at h₁
        simp only [List.length_map, hlen] at h₁
        omega
      subst hn9
      have hline : (ts[9]?).map (·.1.firstLine) = some 3 := by rw [hts]; decide +kernel
      cases ht : ts[9]? with
      | none => rw [ht] at hline; cases hline
      | some t =>
        rw [ht] at hline
        obtain ⟨number, pre, own, post, hs⟩ := hst t (List.mem_of_getElem? ht)
        refine ⟨_, ts, (loc, c), p, e, s, rest, 9, t, number, pre, own, post, hls, ?_, hsc, hreach, he,
          hss, ha, (termsOf_plain ts) ▸ hn, ht, hs, ?_⟩
        · unfold Showable Visible
          decide +kernel
        · rw [← hs.inside.2.2.1]
          exact Option.some.inj hline

end Selint
