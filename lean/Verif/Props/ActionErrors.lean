import Verif.Lemmas.ActionErrors
import Verif.Props.SyntaxOutput
/-!
# C102: what is printed when an action refuses a file
-/

namespace Selint
open Spec Lr

theorem Lr.unexpected_says {x : Nt} {fl : PlainFlavor} (h : onlyIn x = some fl) :
    unexpected fl = cs!"Error: Unexpected " ++ fileWord fl ++ cs!"-file parsed" := by
  cases x <;> simp only [onlyIn] at h <;> cases h <;> rfl

/-- **C102 (output).** If `yyparse` gives up, either the tables have no entry, and all that is said in
C100 is printed; or the action of a production refuses a part of the text, for one of the reasons
`Refused` lists. Then `yyerror` is called with that message and the location from the first token of
that part to its last one, and the lines kept when its last token was read; but for a class that
inherits and has no permissions of its own they are those kept when the next token was read. If the
part is a statement, it is called invalid, too, with the same location. -/
theorem C102_output {m₀ : Mem} {expected : PlainFlavor} {mod : Str} {maps : Maps} {before : Location}
    {fin : Location × LineCache} {ts : Scanned} {q : Asking}
    (h : AskingReaches before fin (Asking.start m₀ expected mod maps before ts) q)
    (hs : q.p.d.step = .ok .reject) (color : Bool) (filename endName : Str) :
    (∃ e s rest, q.p.d.l.c.look = some e ∧ q.p.d.states = s :: rest ∧ lalrAction s e.sym.code = none ∧
      q.output before color filename endName = q.p.output color filename endName) ∨
    ∃ (r : Rule) (us seg after : Scanned) (a b : Location × Token × LineCache) (msg : Str), r ∈ rules ∧
      ts = us ++ seg ++ after ∧ Yields r.rhs seg.kinds ∧ seg.head? = some a ∧ seg.getLast? = some b ∧
      Refused expected r.lhs seg.kinds msg ∧
      ((r.lhs = .roleAllow ∧ r.rhs ≠ plainClass ∧ q.output before color filename endName = (do
          let x ← yyerror color filename b.2.2 (fromTo a.1 b.1) msg
          let y ← yyerror color filename b.2.2 (fromTo a.1 b.1) cs!"Error: Invalid statement"
          .ok (x ++ y))) ∨
        (r.lhs ≠ .roleAllow ∧ r.rhs ≠ plainClass ∧ q.output before color filename endName =
          yyerror color filename b.2.2 (fromTo a.1 b.1) msg) ∨
        (r.rhs = plainClass ∧ q.output before color filename endName =
          yyerror color filename (cacheAt ts fin (us.length + 4)) (fromTo a.1 b.1) msg)) := by
  have hl := asking_locating h
  obtain ⟨pre, look, stk, segs, hm⟩ := Locates.reaches hl
  have hq := Asks.reaches h
  obtain ⟨e, s, rest, he, hst, ha | ⟨i, r, l, ha, hr, hl'⟩⟩ := hm.rejects hs
  · exact .inl ⟨e, s, rest, he, hst, ha, by simp only [Asking.output, he, hst, ha]⟩
  right
  have hstep : ∃ c' line, q.p.d.l.c.step (.reduce r line) = some (.ok (.error c')) := by
    simp only [Lined.step] at hl'
    split at hl'
    · cases hl'
    · cases hl'
    · cases hl'
    · rename_i c hc
      exact ⟨c, _, hc⟩
  obtain ⟨c', line, hstep⟩ := hstep
  obtain ⟨hrm, cmd, more, hact, hwhy⟩ := step_error hstep
  have htop := hm.top hst
  have ha' := ha
  rw [← htop] at ha'
  have hmap := hm.onStack ha' hr
  obtain ⟨-, hlen, s', hg⟩ := hm.linked.fits hm.stack ha' hr
  have hck := reduced_checked complaint_checked ha hr
  have hexp : q.p.d.l.c.expected = expected := drive_expected (locating_drive hl)
  -- what both kinds have in common
  have hcommon : r.before = [] ∧ r.rhs.head?.any Sym.solid = true ∧ r.rhs.getLast?.any Sym.closed = true := by
    rcases hwhy with ⟨fl, rel, rfl, -⟩ | ⟨n, rel, fl, rfl, -, -⟩ <;>
      simp only [checkComplaint, hact, List.head?_cons, Bool.and_eq_true, decide_eq_true_eq] at hck
    · exact ⟨hck.1.1.1.1.1, hck.1.1.1.2, hck.1.1.2⟩
    · exact ⟨hck.1.1.1.1.1.1, hck.1.1.2, hck.1.2⟩
  obtain ⟨hbef, hsol, hclo⟩ := hcommon
  have hpos : 0 < r.rhs.length := by
    cases hrr : r.rhs with
    | nil => rw [hrr] at hclo; cases hclo
    | cons _ _ => simp
  obtain ⟨e', he', hce⟩ := hm.topClosed hmap hclo
  have hfresh := hq.fresh he' hce
  have htk := hm.stood.take r.rhs.length
  obtain ⟨l₁, hl₁, a, as, hseg, hbeg⟩ := htk.begins (by
    rw [hmap, List.getLast?_reverse]
    exact hsol)
  obtain ⟨us', b, hseg', hend⟩ := hm.held.ends he' hce before hpos
  have hhere : locationOf before r.rhs.length q.p.locs = fromTo a.1 b.1 := by
    obtain ⟨h₁, h₂⟩ := hbeg
    obtain ⟨h₃, h₄⟩ := hend
    simp only [locationOf, hl₁] at h₃ h₄ ⊢
    simp only [fromTo, h₁, h₂, h₃, h₄]
  have hy := htk.yields
  rw [hmap, List.reverse_reverse] at hy
  have hpre : pre = (segs.drop r.rhs.length).reverse.flatten ++ (segs.take r.rhs.length).reverse.flatten := by
    rw [hm.parts, ← List.flatten_append, ← List.reverse_append, List.take_append_drop]
  have hlast : q.last = (b.1, b.2.2) := by
    refine hq.last hm (us := (segs.drop r.rhs.length).reverse.flatten ++ us') (t := b) ?_
    rw [hpre, hseg', List.append_assoc]
  have hds : q.p.d.states.drop r.rhs.length = (stk.drop r.rhs.length).map (·.1) ++ [0] := by
    rw [hm.states, List.drop_append_of_le_length (by simpa using hlen), List.map_drop]
  refine ⟨r, (segs.drop r.rhs.length).reverse.flatten, (segs.take r.rhs.length).reverse.flatten,
    look ++ q.p.input, a, b, ?_⟩
  have hall : ts = (segs.drop r.rhs.length).reverse.flatten ++ (segs.take r.rhs.length).reverse.flatten ++
      (look ++ q.p.input) := by
    rw [← hpre]
    exact hm.all
  have hhd : ((segs.take r.rhs.length).reverse.flatten).head? = some a := by rw [hseg]; rfl
  have hgl : ((segs.take r.rhs.length).reverse.flatten).getLast? = some b := by rw [hseg']; simp
  have hquiet : onlyReduces s = true → q.latest s = (b.1, b.2.2) := by
    intro ho
    simp [Asking.latest, hfresh, ho, hlast]
  have hout : ∀ {msg}, r.complaint = some msg →
      q.output before color filename endName = q.failure before color filename s r msg := by
    intro msg hmsg
    simp only [Asking.output, he, hst, ha, hr, hl', hmsg]
  rcases hwhy with ⟨fl, rel, rfl, hne⟩ | ⟨n, rel, fl, rfl, hne, hav⟩ <;>
    simp only [checkComplaint, hact, List.head?_cons, Bool.and_eq_true, decide_eq_true_eq] at hck
  · have honly := hck.1.1.1.1.2
    have hnra := hck.1.2
    have hor := hck.2
    have hmsg : r.complaint = some (unexpected fl) := by
      simp only [Rule.complaint, hact, List.findSome?_cons, Cmd.complaint]
    rw [hexp] at hne
    refine ⟨unexpected fl, hrm, hall, hy, hhd, hgl, .inl ⟨fl, honly, hne, unexpected_says honly⟩, ?_⟩
    rw [hout hmsg]
    have hnone := recover_outer (hm.linked.drop (n := r.rhs.length)) (goto_outer hg honly)
      (q.p.locs.drop r.rhs.length) (fromTo a.1 b.1)
    simp only [Asking.failure, hhere, hds, hnone]
    have hid : ∀ x : Res Str, (x >>= fun first => Res.ok first) = x := by
      intro x
      cases x <;> rfl
    rw [hid]
    right
    by_cases hpc : r.rhs = plainClass
    · right
      refine ⟨hpc, ?_⟩
      have ho : onlyReduces s = false := by simpa [hpc] using hor
      have hlat : (q.latest s).2 = cacheAt ts fin pre.length := by
        simp only [Asking.latest, ho, Bool.not_false, Bool.or_true, if_true]
        exact (hm.here he).2.1
      have hplen : pre.length = (segs.drop r.rhs.length).reverse.flatten.length + 4 := by
        rw [hpre, List.length_append]
        congr 1
        generalize (segs.take r.rhs.length).reverse.flatten = seg at hy
        rw [hpc] at hy
        have : (Scanned.kinds seg).length = 4 := by
          generalize Scanned.kinds seg = ks at hy
          rcases hy with _ | hy | _
          rcases hy with _ | hy | _
          rcases hy with _ | hy | _
          rcases hy with _ | hy | _
          cases hy
          rfl
        simpa [Scanned.kinds] using this
      rw [hlat, hplen]
    · left
      have ho : onlyReduces s = true := by simpa [hpc] using hor
      rw [hquiet ho]
      exact ⟨hnra, hpc, rfl⟩
  · have hro := hck.1.1.1.1.1.2
    have hn1 := hck.1.1.1.1.2
    have hhead := hck.1.1.1.2
    have ho := hck.2
    have hmsg : r.complaint = some cs!"Incomplete AV rule" := by
      simp only [Rule.complaint, hact, List.findSome?_cons, Cmd.complaint]
    have hentry : ∃ e₁, (q.p.d.l.c.stack.take r.rhs.length).getLast? = some e₁ ∧ e₁.sym = .n .avType := by
      have := congrArg List.getLast? hmap
      rw [List.getLast?_reverse, hhead, List.map_take, ← hm.stack, ← List.map_take, List.getLast?_map,
        Option.map_eq_some_iff] at this
      exact this
    obtain ⟨e₁, he₁, hsym⟩ := hentry
    obtain ⟨k, fl', rest', hk, hw, hv⟩ := hm.held.av he₁ hsym
    have hfl : fl' = fl := by
      rw [hbef, hn1] at hav
      simp only [avAt, List.length_nil, Nat.zero_add, Nat.sub_self, List.getElem?_map] at hav
      rw [← List.head?_eq_getElem?, List.head?_reverse, he₁] at hav
      simp only [Option.map_some, hv] at hav
      exact Res.ok.inj hav
    refine ⟨cs!"Incomplete AV rule", hrm, hall, hy, hhd, hgl,
      .inr ⟨hro, rfl, k, fl', rest', hk, hw, by rw [hfl]; exact hne⟩, .inl ⟨hro, ?_, ?_⟩⟩
    · intro hpc
      rw [hpc] at hhead
      cases hhead
    · rw [hout hmsg]
      rw [hro] at hg
      have hse := goto_roleAllow hg
      have hsome : recoverPlace (q.p.d.states.drop r.rhs.length) (q.p.locs.drop r.rhs.length)
          (fromTo a.1 b.1) = some (fromTo a.1 b.1) := by
        rw [hds]
        cases hd : stk.drop r.rhs.length with
        | nil =>
          rw [hd] at hse
          simp only [List.map_nil, List.nil_append, recoverPlace]
          exact if_pos hse
        | cons x xs =>
          rw [hd] at hse
          simp only [List.map_cons, List.cons_append, recoverPlace]
          exact if_pos hse
      simp only [Asking.failure, hhere, hsome, hquiet ho]
      rfl

/-- **C102 (right texts).** A text that is right by the grammar is only refused for one of these
reasons. -/
theorem C102_sentence {m₀ : Mem} {expected : PlainFlavor} {mod : Str} {maps : Maps} {before : Location}
    {fin : Location × LineCache} {ts : Scanned} {q : Asking}
    (h : AskingReaches before fin (Asking.start m₀ expected mod maps before ts) q)
    (hs : q.p.d.step = .ok .reject) (hok : Sentence ts.kinds) :
    ∃ (r : Rule) (us seg after : Scanned) (msg : Str), r ∈ rules ∧ ts = us ++ seg ++ after ∧
      Yields r.rhs seg.kinds ∧ Refused expected r.lhs seg.kinds msg := by
  rcases C102_output h hs false [] [] with ⟨e, s, rest, he, hst, ha, -⟩ |
    ⟨r, us, seg, after, a, b, msg, hr, hts, hy, -, -, href, -⟩
  · obtain ⟨n, hn, -⟩ := C97_place (locating_drive (asking_locating h)) he hst ha
    exact absurd hok (C97_exists.1 ⟨n, (termsOf_plain ts) ▸ hn⟩)
  · exact ⟨r, us, seg, after, msg, hr, hts, hy, href⟩

/-- What `yyerror` prints begins with the message. -/
theorem yyerror_says {color : Bool} {filename msg t : Str} {c : LineCache} {loc : Location}
    (h : yyerror color filename c loc msg = .ok t) :
    ∃ more, t = formatFinding color ⟨filename, loc.firstLine, ⟨'F', 1, msg⟩⟩ ++ more := by
  unfold yyerror at h
  dsimp only at h
  split at h
  · obtain ⟨x, -, h⟩ := Res.bind_eq_ok h
    cases h
    simp only [List.append_assoc]
    exact ⟨_, rfl⟩
  · obtain ⟨x, -, h⟩ := Res.bind_eq_ok h
    cases h
    exact ⟨_, rfl⟩

/-- The first and the last token of a part. -/
theorem part_places {ts us seg after : Scanned} {a b : Location × Token × LineCache}
    (hts : ts = us ++ seg ++ after) (ha : seg.head? = some a) (hb : seg.getLast? = some b) :
    ts[us.length]? = some a ∧ ts[us.length + (seg.length - 1)]? = some b := by
  have hpos : 0 < seg.length := by
    cases seg with
    | nil => cases ha
    | cons _ _ => simp
  constructor
  · rw [hts, List.append_assoc, List.getElem?_append_right (Nat.le_refl _), Nat.sub_self,
      List.getElem?_append_left hpos, ← List.head?_eq_getElem?, ha]
  · rw [hts, List.append_assoc, List.getElem?_append_right (by omega),
      List.getElem?_append_left (by omega), show us.length + (seg.length - 1) - us.length =
        seg.length - 1 by omega, ← List.getLast?_eq_getElem?, hb]

/-- **C102 (never silent).** Whenever `yyparse` gives up on a text, a message is printed that names the
file, and every line that is shown is one that has been read. -/
theorem C102_told {text : Str} {ls : List Str} (hls : LinesOf text ls) (h32 : ls.length + 1 < 2 ^ 32)
    {m₀ : Mem} {expected : PlainFlavor} {mod : Str} {maps : Maps} {before : Location}
    {ts : Scanned} {fin : Location × LineCache} (hsc : scanText text before = some (ts, fin))
    {q : Asking} (h : AskingReaches before fin (Asking.start m₀ expected mod maps before ts) q)
    (hs : q.p.d.step = .ok .reject) (color : Bool) (filename endName : Str) :
    ∃ line msg more, q.output before color filename endName =
      .ok (formatFinding color ⟨filename, line, ⟨'F', 1, msg⟩⟩ ++ more) := by
  rcases C102_output h hs color filename endName with ⟨e, s, rest, he, hst, ha, hout⟩ |
    ⟨r, us, seg, after, a, b, msg, hr, hts, hy, hhd, hgl, -, hout⟩
  · obtain ⟨t, ht⟩ := C100_safe hls h32 hsc (asking_locating h) color filename endName
    rw [hout]
    obtain ⟨n, names, first, -, -, -, rfl, hcase⟩ := C100_output (asking_locating h) he hst ha color
      filename endName
    generalize hmsg : cs!"syntax error, unexpected " ++ _ ++ _ = msg at hcase
    clear hmsg
    rcases hcase with hcase | ⟨k, -, -, hcase⟩
    · rw [hcase] at ht ⊢
      obtain ⟨more, rfl⟩ := yyerror_says ht
      exact ⟨_, _, more, ht⟩
    · rw [hcase] at ht ⊢
      have ht' := ht
      obtain ⟨x, hx, ht⟩ := Res.bind_eq_ok ht
      obtain ⟨y, -, ht⟩ := Res.bind_eq_ok ht
      cases ht
      obtain ⟨more, rfl⟩ := yyerror_says hx
      rw [List.append_assoc] at ht'
      exact ⟨_, _, _, ht'⟩
  · obtain ⟨hpa, hpb⟩ := part_places hts hhd hgl
    have hne : ts ≠ [] := by
      rintro rfl
      cases hpa
    have hla : locationAt ts fin us.length = a.1 := by simp only [locationAt, hpa]; rfl
    have hlb : locationAt ts fin (us.length + (seg.length - 1)) = b.1 := by
      simp only [locationAt, hpb]; rfl
    have hcb : cacheAt ts fin (us.length + (seg.length - 1)) = b.2.2 := by
      simp only [cacheAt, hpb]; rfl
    obtain ⟨g1, g2, g3, seen, hc, g4⟩ := between_read hls hsc hne
      (show us.length ≤ us.length + (seg.length - 1) by omega)
    rw [hla] at g1 g2
    rw [hlb] at g2 g3 g4
    rw [hcb] at hc
    have key : ∀ m, ∃ t, yyerror color filename b.2.2 (fromTo a.1 b.1) m = .ok t := fun m =>
      yyerror_ok hc g1 g2 (by show b.1.lastLine < _; omega) g4
    rcases hout with ⟨-, -, hout⟩ | ⟨-, -, hout⟩ | ⟨hpc, hout⟩
    · obtain ⟨x, hx⟩ := key msg
      obtain ⟨y, hy⟩ := key cs!"Error: Invalid statement"
      rw [hout, hx, hy]
      obtain ⟨more, rfl⟩ := yyerror_says hx
      exact ⟨_, _, more ++ y, by rw [← List.append_assoc]; rfl⟩
    · obtain ⟨x, hx⟩ := key msg
      rw [hout, hx]
      obtain ⟨more, rfl⟩ := yyerror_says hx
      exact ⟨_, _, _, rfl⟩
    · obtain ⟨g1', g2', g3', seen', hc', g4'⟩ := between_read hls hsc hne
        (show us.length + (seg.length - 1) ≤ us.length + 4 by
          have : seg.length = 4 := by
            rw [hpc] at hy
            have : (Scanned.kinds seg).length = 4 := by
              generalize Scanned.kinds seg = ks at hy
              rcases hy with _ | hy | _
              rcases hy with _ | hy | _
              rcases hy with _ | hy | _
              rcases hy with _ | hy | _
              cases hy
              rfl
            simpa [Scanned.kinds] using this
          omega)
      rw [hlb] at g2'
      have hfl : b.1.lastLine ≤ b.1.firstLine := by
        obtain ⟨hstands, -⟩ := scan_stands hls hsc
        obtain ⟨number, pre, own, post, hst⟩ := hstands b (List.mem_of_getElem? hpb)
        have := hst.inside
        omega
      obtain ⟨x, hx⟩ := yyerror_ok (color := color) (filename := filename) (msg := msg)
        (loc := fromTo a.1 b.1) hc' g1 g2 (by show b.1.lastLine < _; omega)
        (by show b.1.lastLine ≤ _; omega)
      rw [hout, hx]
      obtain ⟨more, rfl⟩ := yyerror_says hx
      exact ⟨_, _, _, rfl⟩

/-- The lines from one token to another one are shown as they are in the text. -/
theorem between_shown {text : Str} {ls : List Str} (hls : LinesOf text ls) (h32 : ls.length < 2 ^ 32)
    (hshow : ∀ l ∈ ls, Showable (trimRight l)) {before : Location} {ts : Scanned}
    {fin : Location × LineCache} (hsc : scanText text before = some (ts, fin)) {k n : Nat} (hkn : k ≤ n)
    {a b : Location × Token × LineCache} (ha : ts[k]? = some a) (hb : ts[n]? = some b) {number : Nat}
    {pre own post : Str} (hs : Stands ls number pre own post a.1 a.2.1 a.2.2) (h1 : number ≠ 1)
    (hv : ∀ x, own.head? = some x → isSpaceC x = false) (color : Bool) (filename msg : Str) :
    yyerror color filename b.2.2 (fromTo a.1 b.1) msg =
      .ok (formatFinding color ⟨filename, number, ⟨'F', 1, msg⟩⟩ ++ shownOf color ls (fromTo a.1 b.1)) := by
  obtain ⟨hstands, -, -, -⟩ := scan_stands hls hsc
  obtain ⟨number', pre', own', post', hs'⟩ := hstands b (List.mem_of_getElem? hb)
  have hin := hs.inside
  have hin' := hs'.inside
  have hts : ts ≠ [] := by
    rintro rfl
    cases ha
  obtain ⟨g1, g2, -, -, -, -⟩ := between_read hls hsc hts hkn
  have hla : locationAt ts fin k = a.1 := by simp only [locationAt, ha]; rfl
  have hlb : locationAt ts fin n = b.1 := by simp only [locationAt, hb]; rfl
  rw [hla] at g1 g2
  rw [hlb] at g2
  have hlen : (ls.take number').length = number' := by rw [List.length_take, Nat.min_eq_left hin'.2.1]
  have := yyerror_from (color := color) (filename := filename) (msg := msg)
    hs hin'.2.2.2.2 (by rw [hlen]; exact hin'.2.2.2.1) (List.getElem?_take_of_lt (by omega))
    (by omega) h1 hv (fun i h2 h3 => by
      rw [hlen] at h3
      have hlt : i - 1 < ls.length := by omega
      rw [textLine, List.getD_eq_getElem?_getD, List.getElem?_take_of_lt (by omega),
        List.getElem?_eq_getElem hlt]
      exact hshow _ (List.getElem_mem hlt))
  have htake := shownOf_take (color := color) (ls := ls) (loc := fromTo a.1 b.1) g2 g1
  rw [show (fromTo a.1 b.1).lastLine = number' from hin'.2.2.2.1] at htake
  rw [this, htake]

/-- **C102 (text).** If a text that is right by the grammar is refused, and its lines can be shown, and
the part that is refused does not begin on the first line (where columns are counted from 0, see C84)
and is not a class that inherits and has no permissions of its own, the lines from the first token of
the part to its last one are shown as they are in the text, below a message that says what is wrong; and
if it is a statement, once more below one that calls it invalid. -/
theorem C102_text {text : Str} {ls : List Str} (hls : LinesOf text ls) (h32 : ls.length < 2 ^ 32)
    (hshow : ∀ l ∈ ls, Showable (trimRight l))
    {m₀ : Mem} {expected : PlainFlavor} {mod : Str} {maps : Maps} {before : Location}
    {ts : Scanned} {fin : Location × LineCache} (hsc : scanText text before = some (ts, fin))
    {q : Asking} (h : AskingReaches before fin (Asking.start m₀ expected mod maps before ts) q)
    (hs : q.p.d.step = .ok .reject) (hok : Sentence ts.kinds) (color : Bool) (filename endName : Str) :
    ∃ (r : Rule) (us seg after : Scanned) (a b : Location × Token × LineCache) (msg : Str) (number : Nat)
      (pre own post : Str), r ∈ rules ∧ ts = us ++ seg ++ after ∧ Yields r.rhs seg.kinds ∧
      seg.head? = some a ∧ seg.getLast? = some b ∧ Refused expected r.lhs seg.kinds msg ∧
      Stands ls number pre own post a.1 a.2.1 a.2.2 ∧
      (number ≠ 1 → (∀ x, own.head? = some x → isSpaceC x = false) → r.rhs ≠ plainClass →
        q.output before color filename endName = .ok (
          formatFinding color ⟨filename, number, ⟨'F', 1, msg⟩⟩ ++ shownOf color ls (fromTo a.1 b.1) ++
          if r.lhs = .roleAllow then
            formatFinding color ⟨filename, number, ⟨'F', 1, cs!"Error: Invalid statement"⟩⟩ ++
              shownOf color ls (fromTo a.1 b.1)
          else [])) := by
  rcases C102_output h hs color filename endName with ⟨e, s, rest, he, hst, ha, -⟩ |
    ⟨r, us, seg, after, a, b, msg, hr, hts, hy, hhd, hgl, href, hout⟩
  · obtain ⟨n, hn, -⟩ := C97_place (locating_drive (asking_locating h)) he hst ha
    exact absurd hok (C97_exists.1 ⟨n, (termsOf_plain ts) ▸ hn⟩)
  obtain ⟨hpa, hpb⟩ := part_places hts hhd hgl
  obtain ⟨hstands, -, -, -⟩ := scan_stands hls hsc
  obtain ⟨number, pre, own, post, hst⟩ := hstands a (List.mem_of_getElem? hpa)
  refine ⟨r, us, seg, after, a, b, msg, number, pre, own, post, hr, hts, hy, hhd, hgl, href, hst,
    fun h1 hv hnp => ?_⟩
  have key := between_shown hls h32 hshow hsc (Nat.le_add_right us.length (seg.length - 1)) hpa hpb hst h1 hv
    color filename
  rcases hout with ⟨hro, -, hout⟩ | ⟨hro, -, hout⟩ | ⟨hpc, -⟩
  · rw [hout, key, key, if_pos hro]
    rfl
  · rw [hout, key, if_neg hro, List.append_nil]
  · exact absurd hpc hnp

/-! ### C102 is about something -/

/-- A number of rounds. -/
def askTo (before : Location) (fin : Location × LineCache) : Nat → Asking → Asking
  | 0, q => q
  | n + 1, q =>
    match q.step before fin with
    | some q' => askTo before fin n q'
    | none => q

theorem askTo_reaches {before : Location} {fin : Location × LineCache} : ∀ (n : Nat) {q₀ q : Asking},
    AskingReaches before fin q₀ q → AskingReaches before fin q₀ (askTo before fin n q)
  | 0, _, _, h => h
  | n + 1, q₀, q, h => by
    simp only [askTo]
    split
    · rename_i q' hs
      exact askTo_reaches n (h.step hs)
    · exact h

/-- What is printed for a file with an error. -/
def saidFor (expected : PlainFlavor) (filename text : Str) : Option (Res Str) :=
  (scanText text ⟨0, 0, 0, 0⟩).map fun r =>
    (askTo ⟨0, 0, 0, 0⟩ r.2 200
      (Asking.start ⟨fun _ => none, 0⟩ expected cs!"m" {} ⟨0, 0, 0, 0⟩ r.1)).output
      ⟨0, 0, 0, 0⟩ false filename cs!"end of file"

/-- tests/functional/policies/parse_errors/test7.if and test7.output, without its last line. -/
example : saidFor .ifFile cs!"test7.if"
    cs!"policy_module\n\n  (\n\n  test7\n\n  ,\n\n  0.0.1\n\n  )\n" =
    some (.ok (cs!"test7.if:             1: (F): Error: Unexpected te-file parsed (F-001)\n" ++
      cs!"    6 |  ...  [truncated]\n" ++
      cs!"    7 |   ,\n" ++
      cs!"      |   ^\n" ++
      cs!"    8 |\n" ++
      cs!"      | ~\n" ++
      cs!"    9 |   0.0.1\n" ++
      cs!"      |   ~~~~~\n" ++
      cs!"   10 |\n" ++
      cs!"      | ~\n" ++
      cs!"   11 |   )\n" ++
      cs!"      |   ~\n")) := by
  decide +kernel

/-- A rule that is not complete. -/
def exIncomplete : Str := cs!"policy_module(a, 1.0)\n\ndontaudit b\n  c;\ntype d;\n"

example : saidFor .teFile cs!"a.te" exIncomplete =
    some (.ok (cs!"a.te:                 3: (F): Incomplete AV rule (F-001)\n" ++
      cs!"    3 | dontaudit b\n" ++
      cs!"      | ^~~~~~~~~~~\n" ++
      cs!"    4 |   c;\n" ++
      cs!"      |   ~~\n" ++
      cs!"a.te:                 3: (F): Error: Invalid statement (F-001)\n" ++
      cs!"    3 | dontaudit b\n" ++
      cs!"      | ^~~~~~~~~~~\n" ++
      cs!"    4 |   c;\n" ++
      cs!"      |   ~~\n")) := by
  decide +kernel

/-- An interface in a te file. -/
example : saidFor .teFile cs!"a.te" cs!"\ninterface(`b',`\n  type c;\n')\n" =
    some (.ok (cs!"a.te:                 2: (F): Error: Unexpected if-file parsed (F-001)\n" ++
      cs!"    2 | interface(`b',`\n" ++
      cs!"      | ^~~~~~~~~~~~~~~\n")) := by
  decide +kernel

/-- **C102 (other lines).** For a class that inherits and has no permissions of its own, other lines are
shown than those that are named, if the next token is on a later line: here line 2 is said to be
`class d`, which is line 4. -/
theorem C102_ahead : saidFor .teFile cs!"a.te" cs!"\nclass a inherits b\n\nclass d\n  inherits e\n" =
    some (.ok (cs!"a.te:                 2: (F): Error: Unexpected av-file parsed (F-001)\n" ++
      cs!"    2 | class d\n" ++
      cs!"      | ^~~~~~~~~~~~~~~~~~\n")) := by
  decide +kernel

/-- An interface, which is right by the grammar and is refused in a te file. -/
def exInterface : Str := cs!"\ninterface(`b',`\n  type c;\n')\n"

/-- A text that meets the hypotheses of `C102_text`. -/
example : ∃ (ls : List Str) (ts : Scanned) (fin : Location × LineCache) (q : Asking),
    LinesOf exInterface ls ∧ (∀ l ∈ ls, Showable (trimRight l)) ∧
    scanText exInterface ⟨0, 0, 0, 0⟩ = some (ts, fin) ∧
    AskingReaches ⟨0, 0, 0, 0⟩ fin
      (Asking.start ⟨fun _ => none, 0⟩ .teFile cs!"m" {} ⟨0, 0, 0, 0⟩ ts) q ∧
    q.p.d.step = .ok .reject ∧ Sentence ts.kinds := by
  have hls : LinesOf exInterface [cs!"\n", cs!"interface(`b',`\n", cs!"  type c;\n", cs!"')\n"] :=
    .line (l := []) (by decide) (.line (l := cs!"interface(`b',`") (by decide)
      (.line (l := cs!"  type c;") (by decide) (.line (l := cs!"')") (by decide) .nil)))
  obtain ⟨ts, loc, c, hsc, -, -, -⟩ := C84_scan hls ⟨0, 0, 0, 0⟩
  have hts : ts = ((scanText exInterface ⟨0, 0, 0, 0⟩).map (·.1)).getD [] := by rw [hsc]; rfl
  have hfin : (loc, c) = ((scanText exInterface ⟨0, 0, 0, 0⟩).map (·.2)).getD (⟨0, 0, 0, 0⟩, .fresh) := by
    rw [hsc]; rfl
  refine ⟨_, ts, (loc, c), _, hls, ?_, hsc, askTo_reaches 200 .refl, ?_, ?_⟩
  · unfold Showable Visible
    decide +kernel
  · have : (match (askTo ⟨0, 0, 0, 0⟩ (loc, c) 200
        (Asking.start ⟨fun _ => none, 0⟩ .teFile cs!"m" {} ⟨0, 0, 0, 0⟩ ts)).p.d.step with
        | .ok .reject => true
        | _ => false) = true := by
      rw [hfin, hts]
      decide +kernel
    split at this
    · assumption
    · cases this
  · have hreach := askTo_reaches (fin := (loc, c)) 200 (AskingReaches.refl (before := ⟨0, 0, 0, 0⟩)
      (fin := (loc, c)) (q₀ := Asking.start ⟨fun _ => none, 0⟩ .ifFile cs!"m" {} ⟨0, 0, 0, 0⟩ ts))
    have : (match (askTo ⟨0, 0, 0, 0⟩ (loc, c) 200
        (Asking.start ⟨fun _ => none, 0⟩ .ifFile cs!"m" {} ⟨0, 0, 0, 0⟩ ts)).p.d.step with
        | .ok .accept => true
        | _ => false) = true := by
      rw [hfin, hts]
      decide +kernel
    split at this
    · rename_i hacc
      rw [← termsOf_plain]
      exact C97_accepted (locating_drive (asking_locating hreach)) hacc
    · cases this

end Selint
