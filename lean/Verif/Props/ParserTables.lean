import Verif.Lemmas.LalrAccepts
import Verif.Props.ParserLines
/-!
# C95: what `yyparse` with its tables accepts
-/

namespace Selint
open Spec Lr

/-- What holds of a parser that has read the tokens, and what its stack was made from. -/
theorem Spec.ParserReaches.comes {m₀ : Mem} (hb : Bounded m₀) {expected : PlainFlavor} {mod : Str}
    {maps : Maps} {ts : List Token} {c : Config}
    (h : ParserReaches (start m₀ expected mod maps) ts c) :
    ∃ st fs is ls k, Lr.At m₀ expected mod maps False True c [] st fs is ls k ∧
      Comes expected mod maps ts c st fs := by
  induction h with
  | refl =>
    exact ⟨_, _, _, _, _, At.start hb, [], [], [], [], rfl, rfl, ⟨rfl, rfl⟩, .nil⟩
  | @move ts c c' mv _ hs ih =>
    obtain ⟨st, fs, is, ls, k, h, he⟩ := ih
    cases mv with
    | read t =>
      simp only [Config.step] at hs
      cases hl : c.look with
      | some e => rw [hl] at hs; cases hs
      | none =>
        rw [hl] at hs
        cases hs
        obtain ⟨is', h'⟩ := h.read hl t (q' := False) nofun
        have ht : tokenOf (.read t) = t.toList := by cases t <;> rfl
        exact ⟨st, _, is', ls, k, h', by rw [ht]; exact he.read hl t⟩
    | shift =>
      simp only [Config.step] at hs
      cases hl : c.look with
      | none => rw [hl] at hs; cases hs
      | some e =>
        rw [hl] at hs
        cases hs
        rw [show ts ++ tokenOf .shift = ts from List.append_nil _]
        exact ⟨st, _, is, ls, k, h.shift hl, he.shift hl⟩
    | reduce r line =>
      simp only [Config.step] at hs
      split at hs
      · rename_i hf
        rw [show ts ++ tokenOf (.reduce r line) = ts from List.append_nil _]
        simp only [Option.some.injEq] at hs
        rcases h.reduce hf line with
          ⟨c₁, st', w, fs', is', ls', k', e, h', hl, ⟨v, hst⟩, rfl, hev⟩ |
          ⟨_, _, _, _, _, _, _, e, _⟩ | ⟨e, _⟩
        · rw [e] at hs
          cases hs
          exact ⟨st', _, is', ls', k', h', he.reduce hf hev hl hst⟩
        · rw [e] at hs; cases hs
        · rw [e] at hs; cases hs
      · cases hs

/-- A parser that has accepted a file has derived it. -/
theorem Lr.Comes.file {expected : PlainFlavor} {mod : Str} {maps : Maps} {ts : List Token}
    {c : Config} {st : PState} {fs : List FVal} {v : Val}
    (h : Comes expected mod maps ts c st fs)
    (hs : entries c = [⟨.t .eof, .none⟩, ⟨.n .selinuxFile, v⟩]) :
    ∃ w, Der expected (.n .selinuxFile) [] [] (PState.init expected mod maps) ts w st := by
  obtain ⟨f, σ, us, vs, rfl, rfl, hl, he⟩ := h
  simp only [entries] at hs
  cases hlook : c.look with
  | some e =>
    rw [hlook] at hs hl
    simp only [Option.toList_some, List.singleton_append, List.cons.injEq] at hs
    obtain ⟨rfl, hs⟩ := hs
    obtain ⟨t, ht, -, rfl⟩ := hl
    cases t with
    | some t => cases t <;> cases ht
    | none =>
      rw [hs] at he
      cases he with
      | cons he hg =>
        cases he
        exact ⟨_, by simpa using hg⟩
  | none =>
    rw [hlook] at hs hl
    obtain ⟨-, rfl⟩ := hl
    simp only [Option.toList_none, List.nil_append] at hs
    rw [hs] at he
    cases he with
    | cons he ht =>
      cases he with
      | cons he hg =>
        cases he
        obtain ⟨t, hq, rfl, -, rfl⟩ := ht.tok_inv rfl
        cases t with
        | some t => clear ht; cases t <;> cases hq
        | none => exact ⟨_, by simpa using hg⟩

/-- **C95 (complete).** `yyparse`, doing in every state what the tables say, accepts each file that
has a derivation whose actions succeed. -/
theorem C95_accepts {m₀ : Mem} (hb : Bounded m₀) {expected : PlainFlavor} {mod : Str} {maps : Maps}
    {f : SourceFile} {st : PState} {ts : Located} (hat : f.At ts)
    (hx : f.exec expected mod maps = .ok (some st)) :
    ∃ d, DriveReaches (Drive.start m₀ expected mod maps ts) d ∧ d.step = .ok .accept := by
  obtain ⟨c, -, -, -, hc, hs, -⟩ := C92_parses hx hb
  obtain ⟨st₁, fs, is, ls, k, -, hcomes⟩ := hc.comes hb
  obtain ⟨w, hd⟩ := hcomes.file hs
  have hcan := hd.runs (m₀ := m₀) (mod := mod) (maps := maps) (stk := []) (ts := []) (ts' := ts)
    (s' := lalrFinal) nofun rfl (SourceFile.at_toks hat) nofun (by
      intro x hx
      cases hx
      exact start_checked.2) nofun (by
      intro x hx _ q r hq hr
      cases hx
      have hm := List.all_eq_true.1 start_checked.1 q (by rw [← hr]; exact mem_prodsOf hq)
      obtain ⟨l, hl, hb⟩ := hasItem_iff.1 hm
      exact ⟨l, hl, bitsIn_testBit hb (by decide +kernel)⟩)
  rw [List.append_nil] at hcan
  obtain ⟨d, hr, hruns⟩ := hcan (d := Drive.start m₀ expected mod maps ts)
    ⟨rfl, rfl, _, [], _, _, _, At.start hb, .refl _, .inl ⟨rfl, rfl, rfl⟩⟩
  obtain ⟨d', hr', hruns', e, he, hes, -⟩ := hruns.look
  obtain ⟨rest, hrest⟩ := hruns'.states_cons
  refine ⟨d', DriveReaches.trans hr hr', ?_⟩
  have ha : lalrAction (topState [(lalrFinal, Sym.n .selinuxFile)]) e.sym.code = some .accept := by
    rw [hes]
    decide +kernel
  simp only [Drive.step, he, hrest, ha]

/-- **C95 (sound).** If `yyparse` accepts the tokens, they have a derivation, and the tree in memory
with its line numbers, the tables and the variables are the ones that the functional parser
finds. -/
theorem C95_accepted {m₀ : Mem} (hb : Bounded m₀) {expected : PlainFlavor} {mod : Str} {maps : Maps}
    {ts : Located} {d : Drive} (hr : DriveReaches (Drive.start m₀ expected mod maps ts) d)
    (hs : d.step = .ok .accept) :
    ∃ g st T, pFile ts = some g ∧ g.exec expected mod maps = .ok (some st) ∧
      NodesAt d.l.c.ms.mem none none (some (root m₀)) st.loc.unzip T ∧
      d.l.c.ms.maps = st.maps ∧ d.l.c.ms.module = st.module ∧ d.l.c.ms.rets = st.rets := by
  obtain ⟨hl, v, he⟩ := (Follows.start.reaches hr).accept hs
  obtain ⟨f, st, T, hat, hx, hrest⟩ := C94_accepted hb hl he
  obtain ⟨g, hg, hp⟩ := C68_complete hat
  refine ⟨g, st, T, hg, ?_, hrest⟩
  rw [← g.plain_exec, hp, f.plain_exec, hx]

/-- **C95.** `yyparse` accepts just the files that have a derivation whose actions succeed. -/
theorem C95_language {m₀ : Mem} (hb : Bounded m₀) (expected : PlainFlavor) (mod : Str) (maps : Maps)
    (ts : Located) :
    (∃ d, DriveReaches (Drive.start m₀ expected mod maps ts) d ∧ d.step = .ok .accept) ↔
      ∃ g st, g.At ts ∧ SourceFile.exec g expected mod maps = .ok (some st) := by
  constructor
  · rintro ⟨d, hr, hs⟩
    obtain ⟨g, st, T, hg, hx, -⟩ := C95_accepted hb hr hs
    exact ⟨g, st, C68_sound hg, hx⟩
  · rintro ⟨g, st, hat, hx⟩
    exact C95_accepts hb hat hx

/-- What it does is determined: all the states it comes to lie on one path. -/
theorem Spec.DriveReaches.linear {d₀ a b : Drive} (ha : DriveReaches d₀ a) (hb : DriveReaches d₀ b) :
    DriveReaches a b ∨ DriveReaches b a := by
  induction ha with
  | refl => exact .inl hb
  | @step d d' _ hs ih =>
    rcases ih with ih | ih
    · have : DriveReaches d' b ∨ b = d := by
        clear hb
        induction ih with
        | refl => exact .inr rfl
        | step _ hs' ih =>
          rcases ih with ih | rfl
          · exact .inl (.step ih hs')
          · rw [hs] at hs'
            cases hs'
            exact .inl .refl
      rcases this with h | rfl
      · exact .inl h
      · exact .inr (.step .refl hs)
    · exact .inr (.step ih hs)

/-- So `yyparse` does not accept a file and also fail on it. -/
theorem C95_once {d₀ a b : Drive} (ha : DriveReaches d₀ a) (hb : DriveReaches d₀ b)
    (hsa : a.step = .ok .accept) (hsb : ∀ d, b.step ≠ .ok (.go d)) : b = a := by
  have key : ∀ {x y : Drive}, DriveReaches x y → (∀ d, x.step ≠ .ok (.go d)) → y = x := by
    intro x y h hx
    induction h with
    | refl => rfl
    | step _ hs ih =>
      subst ih
      exact absurd hs (hx _)
  rcases ha.linear hb with h | h
  · exact key h (by intro d hd; rw [hsa] at hd; cases hd)
  · exact (key h hsb).symm

/-! ### C95 is about something -/

/-- A header and a require block: `yyparse` accepts it. -/
example : ∃ d, DriveReaches (Drive.start ⟨fun _ => none, 0⟩ .teFile cs!"m" {}
      ((lexFile bracedText).getD [])) d ∧ d.step = .ok .accept := by
  obtain ⟨g, hg, st, hx⟩ : ∃ g, pFile ((lexFile bracedText).getD []) = some g ∧
      ∃ st, g.exec .teFile cs!"m" {} = .ok (some st) :=
    ⟨_, by with_unfolding_all rfl, _, by with_unfolding_all rfl⟩
  exact C95_accepts (fun _ _ => rfl) (C68_sound hg) hx

end Selint
