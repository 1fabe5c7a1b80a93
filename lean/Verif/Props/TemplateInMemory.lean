import Verif.Lemmas.TemplateInMemory
/-!
# C89: template expansion on allocated memory

`add_template_declarations` reads the tables of templates, the calls they make (data of nodes)
and the arguments of a call, fills the tables of declarations, and frees what it allocates on
the way, except for the names of the enclosing templates when the declaration of a nested
template cannot be written out.
-/

namespace Selint

open Spec

theorem Spec.CallsAt.fun {m p cs ps cs' ps'} (h : CallsAt m p cs ps) (h' : CallsAt m p cs' ps') :
    cs = cs' ∧ ps = ps' := by
  induction h generalizing cs' ps' with
  | nil => cases h'; simp
  | cons h₁ _ _ ih =>
    cases h' with
    | cons h₁' h₂' _ =>
      rw [h₁] at h₁'
      simp only [Option.some.injEq, Obj.cell.injEq, ListCell.mk.injEq] at h₁'
      obtain ⟨rfl, rfl⟩ := h₁'
      obtain ⟨rfl, rfl⟩ := ih h₂'
      simp

theorem Spec.TableAt.mem {β : Type} {E : Mem → Addr → Str → β → List Addr → Prop} {m : Mem}
    {ps : List Addr} {l : Assoc β} {R : List Addr} (h : TableAt E m ps l R) {p : Addr}
    (hp : p ∈ ps) : ∃ k v R', E m p k v R' ∧ ∀ q ∈ R', q ∈ R := by
  induction h with
  | nil => simp at hp
  | cons h _ ih =>
    rcases List.mem_cons.1 hp with rfl | hp
    · exact ⟨_, _, _, h, by simp +contextual⟩
    · obtain ⟨k, v, R', h₁, h₂⟩ := ih hp
      exact ⟨k, v, R', h₁, fun q hq => by simp [h₂ q hq]⟩

theorem calls_held_congr {callOf : Addr → IfCallData} {m m' : Mem} {t t' : Tables} {B F : List Addr}
    {l : Assoc TemplateElem} (h : TableAt (TemplateAt callOf) m t.template l B)
    (hc : CallsHeld m callOf t F) (hB : EqOn m m' B) (hF : EqOn m m' F)
    (ht : t'.template = t.template) : CallsHeld m' callOf t' F := by
  intro p hp o cs qs ho hcs c hc'
  rw [ht] at hp
  obtain ⟨k, v, R, ⟨a, d, c', cs', ps, qs', f₁, f₂, f₃, f₄, f₅, rfl⟩, hR⟩ := h.mem hp
  rw [hB p (hR p (by simp)), f₁] at ho
  simp only [Option.some.injEq, Obj.tmpl.injEq] at ho
  subst ho
  obtain ⟨rfl, rfl⟩ := hcs.fun (f₄.congr (hB.mono fun q hq => hR q (by simp [hq])))
  obtain ⟨rs, i₁, i₂⟩ := hc p hp _ cs qs f₁ f₄ c hc'
  exact ⟨rs, i₁.congr (hF.mono i₂), i₂⟩

/-- The expansion of a template, with the arguments of a call in memory. It ends as the
expansion on values does, with the same tables, and everything else in memory stays. If it
succeeds, or meets a loop, the memory holds nothing new but the entries of the tables. If a
declaration cannot be written out, then what is left in addition is a list of the names of the
templates that enclose the one with that declaration. -/
theorem C89_expand {m : Mem} {callOf : Addr → IfCallData} {t : Tables} {maps maps' : Maps}
    {T F : List Addr} (hT : TablesAt m callOf t maps T) (ho : Owns m (T ++ F))
    (hc : CallsHeld m callOf t F) {pa : Option Addr} {args : List (Str × Bool)} {As : List Addr}
    (ha : SlAt m pa args As) (hA : ∀ q ∈ As, q ∈ F) {name mod : Str} {e : SelintError}
    (h : expandTemplate name (args.map (·.1)) mod maps = .done e maps') :
    ∃ m' t' T', m.expandTemplate t name pa mod = .ok (e, m', t') ∧
      TablesAt m' callOf t' maps' T' ∧ (∀ q ∈ F, m'.obj q = m.obj q) ∧
      CallsHeld m' callOf t' F ∧
      (((e = .success ∨ e = .ifCallLoop) ∧ Owns m' (T' ++ F)) ∨
        (e = .m4SubFailure ∧ ∃ path last p lost, Nested maps name path last ∧
          Unwritable maps last ∧ NamesAt m' p path.reverse lost ∧ Owns m' (T' ++ lost ++ F))) := by
  obtain ⟨P, Q, A, B, h₁, h₂, h₃, h₄, rfl⟩ := hT
  have hR : Readable callOf m t maps (B ++ F) := readable h₄ (by simp +contextual)
    (fun p hp o cs qs i₁ i₂ c hc' => by
      obtain ⟨rs, i₃, i₄⟩ := hc p hp o cs qs i₁ i₂ c hc'
      exact ⟨rs, i₃, fun q hq => by simp [i₄ q hq]⟩)
  have hx : addTemplateDeclarations (t.template.length + 2) name
      (args.map fun x => some x.1) [] mod maps = .done e maps' := by
    rw [h₄.length, ← h, expandTemplate, List.map_map]; rfl
  obtain ⟨m', t', T', e₁, ⟨P', hP, rfl⟩, he, hk, haft⟩ := expand_rec hR (mod := mod)
    (t.template.length + 2) (pp := none) (parents := []) (Ps := [])
    (F := flagTables.flatMap Q ++ A ++ B ++ F) (ArgsAt.of_sl ha)
    (fun q hq => by simp [hA q hq]) .nil ⟨P, h₁, rfl⟩ (ho.perm (by pieces))
    (by simp +contextual) (EqOn.refl _ _) rfl rfl hx
  refine ⟨m', t', strTables.flatMap P' ++ flagTables.flatMap Q ++ A ++ B, e₁,
    ⟨P', Q, A, B, hP, ?_, ?_, ?_, rfl⟩, he.right, ?_, ?_⟩
  · intro i
    rw [hk.1.1, hk.2.1]
    refine (h₂ i).congr local_flag (he.mono fun q hq => ?_)
    simp only [List.mem_append, List.mem_flatMap]
    exact .inl (.inl (.inl ⟨i, mem_flagTables i, hq⟩))
  · rw [hk.1.2.1, hk.2.2.1]; exact h₃.congr local_macro (he.mono (by grind))
  · rw [hk.1.2.2, hk.2.2.2]; exact h₄.congr (local_template callOf) (he.mono (by grind))
  · exact calls_held_congr h₄ hc (he.mono (by grind)) he.right hk.1.2.2
  · rcases haft with ⟨rfl, ho', _⟩ | ⟨rfl, ho'⟩ | ⟨rfl, path, last, p, lost, L, a₁, a₂, a₃, a₄, ho', _⟩
    · exact .inl ⟨.inl rfl, ho'.perm (by pieces)⟩
    · exact .inl ⟨.inr rfl, ho'.perm (by pieces)⟩
    · refine .inr ⟨rfl, path, last, p, L, a₁, a₂, by simpa using a₃, ho'.perm ?_⟩
      rw [List.append_nil] at a₄
      refine List.Perm.trans (l₂ := strTables.flatMap P' ++ L ++ [] ++
        (flagTables.flatMap Q ++ A ++ B ++ F)) ?_ (by pieces)
      exact ((a₄.symm.append_left _).append_right _).append_right _

/-- After that, `free_all_maps` gives back everything the tables held: only what was there
before and the lost names remain. -/
theorem C89_freed {m : Mem} {callOf : Addr → IfCallData} {t : Tables} {maps maps' : Maps}
    {T F : List Addr} (hT : TablesAt m callOf t maps T) (ho : Owns m (T ++ F))
    (hc : CallsHeld m callOf t F) {pa : Option Addr} {args : List (Str × Bool)} {As : List Addr}
    (ha : SlAt m pa args As) (hA : ∀ q ∈ As, q ∈ F) {name mod : Str} {e : SelintError}
    (h : expandTemplate name (args.map (·.1)) mod maps = .done e maps') :
    ∃ m' t' m'' path lost p, m.expandTemplate t name pa mod = .ok (e, m', t') ∧
      m'.freeAllMaps t' = .ok (m'', .empty) ∧ NamesAt m'' p path.reverse lost ∧
      Owns m'' (lost ++ F) ∧ (∀ q ∈ F, m''.obj q = m.obj q) ∧
      (e = .m4SubFailure → ∃ last, Nested maps name path last ∧ Unwritable maps last) ∧
      (e ≠ .m4SubFailure → lost = []) := by
  obtain ⟨m', t', T', e₁, e₂, e₃, _, e₄⟩ := C89_expand hT ho hc ha hA h
  rcases e₄ with ⟨he, ho'⟩ | ⟨rfl, path, last, p, lost, a₁, a₂, a₃, ho'⟩
  · have hf := C87_free ho'.bounded e₂ (List.nodup_append.1 ho'.nodup).1
    refine ⟨m', t', dropped m' T', [], [], none, e₁, hf, .nil, ho'.dropped, ?_, ?_, fun _ => rfl⟩
    · intro q hq; rw [ho'.eqOn_dropped q hq, e₃ q hq]
    · rintro rfl; simp at he
  · have ho'' : Owns m' (T' ++ (lost ++ F)) := ho'.perm (by pieces)
    have hf := C87_free ho''.bounded e₂ (List.nodup_append.1 ho''.nodup).1
    refine ⟨m', t', dropped m' T', path, lost, p, e₁, hf, a₃.congr ho''.eqOn_dropped.left,
      ho''.dropped, ?_, fun _ => ⟨last, a₁, a₂⟩, by simp⟩
    intro q hq; rw [ho''.eqOn_dropped.right q hq, e₃ q hq]

/-- A template that makes no calls loses nothing, whatever happens. -/
theorem C89_direct {m : Mem} {callOf : Addr → IfCallData} {t : Tables} {maps maps' : Maps}
    {T F : List Addr} (hT : TablesAt m callOf t maps T) (ho : Owns m (T ++ F))
    (hc : CallsHeld m callOf t F) {pa : Option Addr} {args : List (Str × Bool)} {As : List Addr}
    (ha : SlAt m pa args As) (hA : ∀ q ∈ As, q ∈ F) {name mod : Str} {e : SelintError}
    (h : expandTemplate name (args.map (·.1)) mod maps = .done e maps')
    (hn : maps.templateCalls name = []) :
    ∃ m' t' T', m.expandTemplate t name pa mod = .ok (e, m', t') ∧
      TablesAt m' callOf t' maps' T' ∧ Owns m' (T' ++ F) := by
  obtain ⟨m', t', T', e₁, e₂, _, _, ⟨_, ho'⟩ | ⟨_, path, last, p, lost, a₁, _, a₃, ho'⟩⟩ :=
    C89_expand hT ho hc ha hA h
  · exact ⟨m', t', T', e₁, e₂, ho'⟩
  · cases a₁ with
    | here => cases a₃; exact ⟨m', t', T', e₁, e₂, by simpa using ho'⟩
    | call h => simp [hn] at h

theorem Spec.SlAt.two {m p l ps} (h : SlAt m p l ps) : ps.length = 2 * l.length := by
  induction h with
  | nil => rfl
  | cons _ _ _ _ _ ih => simp [ih]; omega

/-- Otherwise two objects are lost for every template on the way to the declaration that
cannot be written out, and there is at least one such when it is not the template's own. -/
theorem C89_lost {m : Mem} {callOf : Addr → IfCallData} {t : Tables} {maps maps' : Maps}
    {T F : List Addr} (hT : TablesAt m callOf t maps T) (ho : Owns m (T ++ F))
    (hc : CallsHeld m callOf t F) {pa : Option Addr} {args : List (Str × Bool)} {As : List Addr}
    (ha : SlAt m pa args As) (hA : ∀ q ∈ As, q ∈ F) {name mod : Str}
    (h : expandTemplate name (args.map (·.1)) mod maps = .done .m4SubFailure maps') :
    ∃ m' t' T' path last lost, m.expandTemplate t name pa mod = .ok (.m4SubFailure, m', t') ∧
      TablesAt m' callOf t' maps' T' ∧ Nested maps name path last ∧ Unwritable maps last ∧
      Owns m' (T' ++ lost ++ F) ∧ lost.length = 2 * path.length ∧
      (¬Unwritable maps name → 2 ≤ lost.length) := by
  obtain ⟨m', t', T', e₁, e₂, _, _, ⟨h, _⟩ | ⟨_, path, last, p, lost, a₁, a₂, a₃, ho'⟩⟩ :=
    C89_expand hT ho hc ha hA h
  · rcases h with h | h <;> cases h
  have hl : lost.length = 2 * path.length := by simpa using Spec.SlAt.two a₃
  refine ⟨m', t', T', path, last, lost, e₁, e₂, a₁, a₂, ho', hl, fun hn => ?_⟩
  cases a₁ with
  | here => exact absurd a₂ hn
  | call => simp at hl; omega

/-! ## A case

The template `outer` calls `inner($1)`, and `inner` declares the type `decl`. -/

namespace TemplateCase

/-- The objects: a call with its name and its argument, the argument of the call to expand, and
the two templates. -/
def objects (decl : Str) : List Obj :=
  [.bytes cs!"inner", .bytes cs!"$1", .sl ⟨some 1, none, false⟩, .call ⟨some 0, some 2⟩,
   .bytes cs!"x", .sl ⟨some 4, none, false⟩,
   .bytes cs!"outer", .cell ⟨some 3, none⟩, .tmpl ⟨some 6, none, some 7⟩,
   .bytes cs!"inner", .bytes decl, .decl ⟨.type, some 10, none⟩, .cell ⟨some 11, none⟩,
   .tmpl ⟨some 9, some 12, none⟩]

/-- The memory. -/
def mem (decl : Str) : Mem := ⟨fun q => (objects decl)[q]?, 14⟩

/-- The tables. -/
def tables : Tables := { Tables.empty with template := [8, 13] }

/-- The call in the body of `outer`. -/
def call : IfCallData := ⟨cs!"inner", [(cs!"$1", false)]⟩

/-- What the tables hold. -/
def maps (decl : Str) : Maps :=
  { template := [(cs!"outer", ⟨[], [call]⟩), (cs!"inner", ⟨[(.type, decl)], []⟩)] }

theorem held (decl : Str) :
    TablesAt (mem decl) (fun _ => call) tables (maps decl) [6, 7, 8, 9, 10, 11, 12, 13] := by
  refine ⟨fun _ => [], fun _ => [], [], [6, 7, 8, 9, 10, 11, 12, 13], ?_, ?_, .nil, ?_, rfl⟩
  · intro i; cases i <;> exact .nil
  · intro i; cases i <;> exact .nil
  · refine .cons (R := [6, 7, 8]) (R' := [9, 10, 11, 12, 13]) ?_
      (.cons (R := [9, 10, 11, 12, 13]) (R' := []) ?_ .nil)
    · exact ⟨6, none, some 7, [3], [], [7], rfl, rfl, .nil, .cons rfl .nil (by simp), rfl, rfl⟩
    · refine ⟨9, some 12, none, [], [10, 11, 12], [], rfl, rfl, ?_, .nil, rfl, rfl⟩
      exact .cons (p₁ := [10, 11]) (p₂ := []) (c := ⟨some 11, none⟩) rfl
        (.mk (p₁ := []) (p₂ := [10]) (d := ⟨.type, some 10, none⟩) rfl rfl .nil (.mk rfl) (by simp))
        .nil (by simp)

theorem owns (decl : Str) :
    Owns (mem decl) ([6, 7, 8, 9, 10, 11, 12, 13] ++ [0, 1, 2, 3, 4, 5]) := by
  refine ⟨by decide, by intro q hq; simp at hq; simp [mem]; omega, ?_⟩
  intro q hq
  refine List.getElem?_eq_none ?_
  simp only [objects, List.length_cons, List.length_nil]
  simp at hq
  omega

theorem calls (decl : Str) :
    CallsHeld (mem decl) (fun _ => call) tables [0, 1, 2, 3, 4, 5] := by
  intro p hp o cs qs ho hcs c hc
  have : c = 3 := by
    simp only [tables, List.mem_cons, List.not_mem_nil, or_false] at hp
    rcases hp with rfl | rfl
    · cases ho
      obtain ⟨rfl, -⟩ := hcs.fun (.cons (p := 7) (c := 3) (n := none) rfl .nil (by simp))
      simpa using hc
    · cases ho; cases hcs; simp at hc
  subst this
  refine ⟨[0, 2, 1, 3], .ifCall (p₁ := [0]) (p₂ := [2, 1]) (d := ⟨some 0, some 2⟩) rfl (.mk rfl)
    (.cons rfl rfl .nil (by simp) (by simp)) (by simp), by simp⟩

theorem args (decl : Str) : SlAt (mem decl) (some 5) [(cs!"x", false)] [5, 4] :=
  .cons rfl rfl .nil (by simp) (by simp)

/-- With `$1_t` the type `x_t` is declared and nothing else is left. -/
example : ∃ m' t' T', (mem cs!"$1_t").expandTemplate tables cs!"outer" (some 5) cs!"m" =
      .ok (.success, m', t') ∧
    TablesAt m' (fun _ => call) t' { maps cs!"$1_t" with type := [(cs!"x_t", cs!"m")] } T' ∧
    Owns m' (T' ++ [0, 1, 2, 3, 4, 5]) := by
  obtain ⟨m', t', T', e₁, e₂, _, _, ⟨_, h⟩ | ⟨h, _⟩⟩ := C89_expand (held cs!"$1_t") (owns _) (calls _)
    (args _) (by simp) (name := cs!"outer") (mod := cs!"m") (e := .success)
    (maps' := { maps cs!"$1_t" with type := [(cs!"x_t", cs!"m")] }) (by decide +kernel)
  · exact ⟨m', t', T', e₁, e₂, h⟩
  · cases h

/-- With `$_t` the name of `outer` is lost. -/
theorem loses : ∃ m' t' T' p lost,
    (mem cs!"$_t").expandTemplate tables cs!"outer" (some 5) cs!"m" = .ok (.m4SubFailure, m', t') ∧
      TablesAt m' (fun _ => call) t' (maps cs!"$_t") T' ∧ NamesAt m' p [cs!"outer"] lost ∧
      Owns m' (T' ++ lost ++ [0, 1, 2, 3, 4, 5]) := by
  obtain ⟨m', t', T', e₁, e₂, _, _, ⟨h, _⟩ | ⟨_, path, last, p, lost, a₁, a₂, a₃, a₄⟩⟩ :=
    C89_expand (held cs!"$_t") (owns _) (calls _)
      (args _) (by simp) (name := cs!"outer") (mod := cs!"m") (e := .m4SubFailure)
      (maps' := maps cs!"$_t") (by decide +kernel)
  · rcases h with h | h <;> cases h
  refine ⟨m', t', T', p, lost, e₁, e₂, ?_, a₄⟩
  have hc : (maps cs!"$_t").templateCalls cs!"outer" = [call] := by decide +kernel
  have hc' : (maps cs!"$_t").templateCalls cs!"inner" = [] := by decide +kernel
  cases a₁ with
  | here =>
    obtain ⟨fl, d, h, _⟩ := a₂
    have : (maps cs!"$_t").templateDecls cs!"outer" = [] := by decide +kernel
    simp [this] at h
  | @call _ _ c path' h h' =>
    rw [hc] at h
    obtain rfl : c = call := by simpa using h
    cases h' with
    | here => exact a₃
    | call h => rw [show call.name = cs!"inner" from rfl, hc'] at h; simp at h

end TemplateCase

/-- It is not so that, when the tables are freed after an expansion, nothing remains but what was
there before. -/
theorem C89_false_all_given_back :
    ¬∀ (m m' m'' : Mem) (callOf : Addr → IfCallData) (t t' : Tables) (maps : Maps) (T F : List Addr)
      (pa : Option Addr) (args : List (Str × Bool)) (As : List Addr) (name mod : Str)
      (e : SelintError), TablesAt m callOf t maps T → Owns m (T ++ F) → CallsHeld m callOf t F →
      SlAt m pa args As → (∀ q ∈ As, q ∈ F) → m.expandTemplate t name pa mod = .ok (e, m', t') →
      m'.freeAllMaps t' = .ok (m'', .empty) → ∀ q, q ∉ F → m''.obj q = none := by
  intro hall
  obtain ⟨m', t', T', p, lost, i₁, i₂, i₃, i₄⟩ := TemplateCase.loses
  have hf := C87_free i₄.bounded i₂ (List.nodup_append.1 (List.nodup_append.1 i₄.nodup).1).1
  have h := hall _ _ _ _ _ _ _ _ _ _ _ _ _ _ _ (TemplateCase.held cs!"$_t") (TemplateCase.owns _)
    (TemplateCase.calls _) (TemplateCase.args _) (by simp) i₁ hf
  have hn := i₄.nodup
  cases i₃ with
  | @cons p a n s b l ps g₁ g₂ g₃ g₄ g₅ =>
  have hp := h p (by grind)
  rw [dropped_obj, if_neg (by grind), g₁] at hp
  cases hp

end Selint
