import Verif.Lemmas.LrActions
/-!
# The check of the parser's actions is right
-/

namespace Selint
open Spec

namespace Lr

variable {root : Addr} {m₀ : Mem} {R : List Addr} {expected : PlainFlavor} {mod : Str}
  {maps : Maps} {vals : List Val} {fs : List FVal} {w : FVal} {q : Prop} {H : List Item} {s : Act} {a a' b : Abs}
  {st : PState} {is js : List Item} {ls : List (Option Addr × List Str)} {k n : Nat} {c : Kind}

theorem Abs.takeStr_eq (h : a.takeStr n = some b) :
    (a.env[n - 1]? = some .word ∨ a.env[n - 1]? = some .command) ∧
      b = { a with env := a.env.set (n - 1) .none, inside := false, first := false } := by
  simp only [Abs.takeStr] at h
  split at h
  · rename_i c hc
    cases h
    obtain ⟨h₁, h₂⟩ := Abs.take_eq hc
    exact ⟨.inl h₁, h₂⟩
  · obtain ⟨h₁, h₂⟩ := Abs.take_eq h
    exact ⟨.inr h₁, h₂⟩

theorem insertMacro_sound {w t p l H} {ms : MState} {tb : Sptables}
    (h : Inv root m₀ R ms st (.names p l :: .word w t :: H) k) :
    ∃ ms' tb', insertMacro ms tb w p = .ok (ms', tb') ∧
      ((Inv root m₀ R ms' { st with maps := macroMaps st.maps t l } (.word w t :: H) k ∧ tb' = tb) ∨
        (Inv root m₀ R ms' { st with maps := macroMaps st.maps t l }
          (.names p l :: .word w t :: H) k ∧
          (Sptables.lists tb').Perm (p :: Sptables.lists tb))) := by
  have hw := h.word_at (a := w) (s := t) (by simp)
  have hl := h.readList (p := p) (l := l.map fun s => (s, false)) (by simp)
  simp only [insertMacro, hw, Res.bind_ok]
  by_cases he : endsWith t cs!"_perms" = true
  · simp only [if_pos he, hl, Res.bind_ok, Selint.giveList, macroMaps]
    have hm := h.maps
    cases hf : ms.maps.permmacros.find t with
    | some _ =>
      have hst : { st with maps := st.maps.insertPermmacro t l } = st := by
        rw [hm] at hf
        simp only [Maps.insertPermmacro, Assoc.insertNew, hf]
      refine ⟨ms, _, rfl, .inr ⟨hst.symm ▸ h, ?_⟩⟩
      simp only [Sptables.lists]
      rw [← List.append_assoc]
      exact List.perm_append_comm
    | none =>
      refine ⟨_, _, rfl, .inr ⟨by
        have := h.setMaps (ms.maps.insertPermmacro t l)
        simp only [List.map_map, Function.comp_def, List.map_id'] at this ⊢
        rw [← hm]
        exact this, ?_⟩⟩
      simp only [Sptables.lists, List.map_append, List.map_cons, List.map_nil, List.append_assoc]
      exact List.perm_middle
  · simp only [if_neg he, macroMaps]
    obtain ⟨ms', e, h'⟩ := h.freeList
    exact ⟨ms', tb, by simp only [e, Res.bind_ok], .inl ⟨h', rfl⟩⟩

/-- A call either goes through or cannot be expanded. -/
theorem insertCall_sound {w t p l H} {ms : MState}
    (h : Inv root m₀ R ms st (.list p l :: .word w t :: H) k) (line : Nat) :
    (∃ ms' st', ms.insertInterfaceCall w p line = .ok ms' ∧
      st.insertInterfaceCall ⟨t, l⟩ line = .ok st' ∧
      Inv root m₀ R ms' st' (.word w t :: H) k) ∨
    (ms.insertInterfaceCall w p line = .ub ∧ Stuck ms ∧
      st.insertInterfaceCall ⟨t, l⟩ line = .ub) := by
  cases hst : st.insertInterfaceCall ⟨t, l⟩ line with
  | ok st' =>
    obtain ⟨ms', e, h'⟩ := h.insertInterfaceCall line hst
    exact .inl ⟨ms', st', e, rfl, h'⟩
  | ub =>
    refine .inr ?_
    have hw := h.word_at (a := w) (s := t) (by simp)
    have h₁ := (h.token t).malloc (.call ⟨some ms.mem.top, p⟩)
    have hl := h₁.readList (p := p) (l := l) (by simp)
    have ht := h₁.nameIfInTemplate
    simp only at hl ht
    simp only [PState.insertInterfaceCall] at hst
    have hx : st.expandCall ⟨t, l⟩ = match st.loc.getNameIfInTemplate with
        | some t' => .done .success (st.maps.insertTemplateCall t' ⟨t, l⟩)
        | none => expandTemplate t (IfCallData.argStrs ⟨t, l⟩) st.module st.maps := rfl
    rw [hx] at hst
    cases hg : st.loc.getNameIfInTemplate with
    | some t' =>
      rw [hg] at hst
      simp at hst
    | none =>
      rw [hg] at hst
      simp only at hst
      have hno : ∀ e m, expandTemplate t (IfCallData.argStrs ⟨t, l⟩) ms.module ms.maps ≠
          .done e m := by
        intro e m hd
        rw [h.module, h.maps] at hd
        rw [hd] at hst
        simp only at hst
        split at hst <;> cases hst
      refine ⟨?_, ⟨t, IfCallData.argStrs ⟨t, l⟩, hno⟩, rfl⟩
      simp only [MState.insertInterfaceCall, hw, Res.bind_ok, malloc_fst, hl, ht, hg]
      cases hd : expandTemplate t (IfCallData.argStrs ⟨t, l⟩) ms.module ms.maps with
      | ub => rfl
      | fuel => rfl
      | done e m => exact absurd hd (hno e m)

/-- A call of an interface. -/
def Cmd.isCall : Cmd → Bool
  | .insertCall .. => true
  | .insertCallNoArgs .. => true
  | _ => false

/-- A statement that may come to `YYERROR`. -/
def Cmd.mayFail : Cmd → Bool
  | .expect .. => true
  | .expectAllow .. => true
  | _ => false

theorem ActAt.keep (h : ActAt root m₀ R expected mod maps vals fs q H s a st w is js ls k) :
    ActAt root m₀ R expected mod maps vals fs q H s { a with inside := false, first := false }
      st w is js ls k :=
  ⟨h.env, h.ret, h.fresh, h.tabs, h.inv, (nomatch ·), (nomatch ·), h.spt, h.quiet, h.noLists⟩

/-- What a statement computes, given its values. -/
local macro "evals" "[" l:Lean.Parser.Tactic.simpLemma,* "]" : tactic =>
  `(tactic| first | rfl | (simp only [Cmd.eval, Option.bind_some, Option.map_some, $l,*]; done) |
    (simp only [Cmd.eval, Option.bind_some, Option.map_some, $l,*]; rfl))

theorem Cmd.sound (c : Cmd) (line : Nat)
    (h : ActAt root m₀ R expected mod maps vals fs q H s a st w is js ls k)
    (hc : c.check a = some a') :
    Sound root m₀ R expected mod maps vals fs q H
      (c.isCall = true ∧ c.eval expected line fs ⟨st, w⟩ = none)
      (c.mayFail = true ∧ c.eval expected line fs ⟨st, w⟩ = none)
      (fun st' w' => c.eval expected line fs ⟨st, w⟩ = some ⟨st', w'⟩) s a' a.leak (c.exec expected line vals s) := by
  have hin := h.inv
  cases c with
  | copy n =>
    simp only [Cmd.check] at hc
    split at hc
    · cases hc
    · rename_i c hn
      split at hc
      · rename_i hown
        obtain ⟨a₁, h₁, h₂⟩ := Option.bind_eq_some_iff.1 hc
        obtain ⟨hk, rfl⟩ := Abs.take_eq h₁
        obtain ⟨hr, rfl⟩ := Abs.gives_eq h₂
        obtain ⟨v, g, ks, rest, hv, hg, hs, hp, he⟩ := h.env.take hk
        have hj := h.ret
        simp only at hr
        rw [hr] at hj
        cases hj
        simp only [Cmd.exec, hv]
        refine .go (s' := { s with ret := v }) (st := st) (is := rest)
          (js := ks) (ls := ls) (k := k) ⟨he, hs, (fun hc => by subst hc; cases hown), h.tabs, hin.perm ?_, ?_, ?_,
          h.spt, ?_, h.noLists⟩ rfl (by simp only [Cmd.eval, hg]; rfl)
        · refine (hp.append_right _).trans ?_
          rw [List.nil_append, ← List.append_assoc rest]
          exact List.perm_append_comm.append_right _
        · intro h; cases h
        · intro h; cases h
        · exact fun hq => ⟨(h.quiet hq).1, not_mem_set (h.quiet hq).2⟩
      · cases hc
  | text t =>
    obtain ⟨x, ms', e, hi⟩ := hin.word (builds_malloc t)
    exact h.giveWord e (a.keep_less) hc rfl h.env hi (by evals [])
  | dup n =>
    obtain ⟨a₁, h₁, h₂⟩ := Option.bind_eq_some_iff.1 hc
    obtain ⟨hk, rfl⟩ := Abs.take_eq h₁
    obtain ⟨x, t, rest, e₁, f₁, hp, he⟩ := h.env.word hk
    obtain ⟨y, ms', e, hi⟩ := (hin.perm (hp.append_right _)).dup
    simp only [Cmd.exec, e₁, Res.bind_ok]
    exact h.giveWord e (a.take_less n) h₂ rfl he hi (by evals [f₁])
  | minus n =>
    obtain ⟨a₁, h₁, h₂⟩ := Option.bind_eq_some_iff.1 hc
    obtain ⟨hk, rfl⟩ := Abs.take_eq h₁
    obtain ⟨x, t, rest, e₁, f₁, hp, he⟩ := h.env.word hk
    obtain ⟨y, ms', e, hi⟩ := (hin.perm (hp.append_right _)).minus
    simp only [Cmd.exec, e₁, Res.bind_ok]
    exact h.giveWord e (a.take_less n) h₂ rfl he hi (by evals [f₁])
  | join c n m =>
    obtain ⟨a₁, h₁, h₂⟩ := Option.bind_eq_some_iff.1 hc
    obtain ⟨a₂, h₂, h₃⟩ := Option.bind_eq_some_iff.1 h₂
    obtain ⟨hk₁, rfl⟩ := Abs.take_eq h₁
    obtain ⟨hk₂, rfl⟩ := Abs.take_eq h₂
    obtain ⟨x, t, r₁, e₁, f₁, hp₁, he₁⟩ := h.env.word hk₁
    obtain ⟨y, u, r₂, e₂, f₂, hp₂, he₂⟩ := he₁.word hk₂
    obtain ⟨z, ms', e, hi⟩ :=
      (hin.perm ((hp₁.trans (hp₂.cons _)).append_right _)).joined c
    simp only [Cmd.exec, e₁, e₂, Res.bind_ok]
    exact h.giveWord e ((a.take_less n).trans (Abs.take_less _ m)) h₃ rfl he₂ hi (by evals [f₁, f₂])
  | single t =>
    obtain ⟨x, ms', e, hi⟩ := hin.names (slFromStr_builds t)
    exact h.giveList e (a.keep_less) hc rfl h.env hi (by evals [])
  | consume n =>
    obtain ⟨a₁, h₁, h₂⟩ := Option.bind_eq_some_iff.1 hc
    obtain ⟨hk, rfl⟩ := Abs.take_eq h₁
    obtain ⟨x, t, rest, e₁, f₁, hp, he⟩ := h.env.word hk
    obtain ⟨y, ms', e, hi⟩ := (hin.perm (hp.append_right _)).consumed
    simp only [Cmd.exec, e₁, Res.bind_ok]
    exact h.giveList e (a.take_less n) h₂ rfl he hi (by evals [f₁])
  | tilda n =>
    obtain ⟨a₁, h₁, h₂⟩ := Option.bind_eq_some_iff.1 hc
    obtain ⟨hk, rfl⟩ := Abs.take_eq h₁
    obtain ⟨x, t, rest, e₁, f₁, g₁, hp, he⟩ := h.env.names hk
    obtain ⟨y, ms', e, hi⟩ := (hin.perm (hp.append_right _)).tilda
    simp only [Cmd.exec, e₁, Res.bind_ok]
    exact h.giveList e (a.take_less n) h₂ rfl he hi (by evals [f₁, g₁])
  | append n m =>
    obtain ⟨a₁, h₁, h₂⟩ := Option.bind_eq_some_iff.1 hc
    obtain ⟨a₂, h₂, h₃⟩ := Option.bind_eq_some_iff.1 h₂
    obtain ⟨hk₁, rfl⟩ := Abs.take_eq h₁
    obtain ⟨hk₂, rfl⟩ := Abs.take_eq h₂
    obtain ⟨x, t, r₁, e₁, f₁, g₁, hp₁, he₁⟩ := h.env.names hk₁
    obtain ⟨y, u, r₂, e₂, f₂, hp₂, he₂⟩ := he₁.word hk₂
    obtain ⟨z, ms', e, hi⟩ := (hin.perm ((hp₁.trans (hp₂.cons _)).append_right _)).appended
    simp only [Cmd.exec, e₁, e₂, Res.bind_ok]
    exact h.giveList e ((a.take_less n).trans (Abs.take_less _ m)) h₃ rfl he₂ hi (by evals [f₁, g₁, f₂])
  | concat n m =>
    obtain ⟨a₁, h₁, h₂⟩ := Option.bind_eq_some_iff.1 hc
    obtain ⟨a₂, h₂, h₃⟩ := Option.bind_eq_some_iff.1 h₂
    obtain ⟨hk₁, rfl⟩ := Abs.take_eq h₁
    obtain ⟨hk₂, rfl⟩ := Abs.take_eq h₂
    obtain ⟨x, t, r₁, e₁, f₁, hp₁, he₁⟩ := h.env.marked hk₁
    obtain ⟨y, u, r₂, e₂, f₂, g₂, hp₂, he₂⟩ := he₁.names hk₂
    obtain ⟨z, ms', e, hi⟩ := (hin.perm ((hp₁.trans (hp₂.cons _)).append_right _)).concatenated
    simp only [Cmd.exec, e₁, e₂, Res.bind_ok]
    exact h.giveMarked e ((a.take_less n).trans (Abs.take_less _ m)) h₃ rfl he₂ hi (by evals [f₁, f₂, g₂])
  | space n m =>
    obtain ⟨a₁, h₁, h₂⟩ := Option.bind_eq_some_iff.1 hc
    obtain ⟨a₂, h₂, h₃⟩ := Option.bind_eq_some_iff.1 h₂
    obtain ⟨hk₁, rfl⟩ := Abs.take_eq h₁
    obtain ⟨hk₂, rfl⟩ := Abs.take_eq h₂
    obtain ⟨x, t, r₁, e₁, f₁, hp₁, he₁⟩ := h.env.marked hk₁
    obtain ⟨y, u, r₂, e₂, f₂, hp₂, he₂⟩ := he₁.word hk₂
    obtain ⟨z, ms', e, hi⟩ := (hin.perm ((hp₁.trans (hp₂.cons _)).append_right _)).spaced
    simp only [Cmd.exec, e₁, e₂, Res.bind_ok]
    exact h.giveMarked e ((a.take_less n).trans (Abs.take_less _ m)) h₃ rfl he₂ hi (by evals [f₁, f₂])
  | av fl =>
    obtain ⟨hr, rfl⟩ := Abs.gives_eq hc
    have hj := h.ret
    rw [hr] at hj
    cases hj
    exact .go (s' := { s with ret := .av fl }) (st := st) (is := is) (js := []) (ls := ls) (k := k)
      ⟨h.env, ⟨fl, rfl, rfl, rfl⟩, (nomatch ·), h.tabs, hin, (nomatch ·), (nomatch ·), h.spt, h.quiet, h.noLists⟩ rfl (by evals [])
  | ifKind t =>
    obtain ⟨hr, rfl⟩ := Abs.gives_eq hc
    have hj := h.ret
    rw [hr] at hj
    cases hj
    exact .go (s' := { s with ret := .ifKind t }) (st := st) (is := is) (js := []) (ls := ls)
      (k := k)
      ⟨h.env, ⟨t, rfl, rfl, rfl⟩, (nomatch ·), h.tabs, hin, (nomatch ·), (nomatch ·), h.spt, h.quiet, h.noLists⟩ rfl (by evals [])
  | free n =>
    obtain ⟨hk, rfl⟩ := Abs.takeStr_eq hc
    obtain ⟨x, t, rest, e₁, -, hp, he⟩ : ∃ x t rest, strAt vals n = .ok x ∧
        wordOf fs n = some t ∧
        is.Perm (.word x t :: rest) ∧ EnvAt (a.env.set (n - 1) .none) vals fs rest := by
      rcases hk with hk | hk
      · exact h.env.word hk
      · exact h.env.command hk
    obtain ⟨ms', e, hi⟩ := (hin.perm (hp.append_right _)).free
    simp only [Cmd.exec, e₁, Res.bind_ok]
    exact h.step e (a.take_less n) rfl he hi (fun _ => rfl) (by evals [])
  | freeList n =>
    obtain ⟨hk, rfl⟩ := Abs.take_eq hc
    obtain ⟨x, t, rest, e₁, f₁, g₁, hp, he⟩ := h.env.names hk
    obtain ⟨ms', e, hi⟩ := (hin.perm (hp.append_right _)).freeList
    simp only [Cmd.exec, e₁, Res.bind_ok]
    exact h.step e (a.take_less n) rfl he hi (fun _ => rfl) (by evals [f₁, g₁])
  | expect fl first =>
    simp only [Cmd.check] at hc
    split at hc
    · rename_i hf
      cases hc
      simp only [Cmd.exec]
      split
      · rename_i he
        refine .go (s' := s) (st := st) (is := is) (js := js) (ls := ls) (k := k)
          ⟨h.env, h.ret, h.fresh, h.tabs, hin, (nomatch ·), (nomatch ·), ?_, h.quiet, h.noLists⟩ rfl (if_pos he)
        intro hs
        simp only [beq_iff_eq] at hs
        rw [he, hs]
      · rename_i he
        obtain ⟨ms', E, e, hF⟩ := h.fails hf
        simp only [e, Res.bind_ok]
        exact .error ⟨rfl, if_neg he⟩ hF
    · cases hc
  | expectAllow n first =>
    obtain ⟨a₁, h₁, h₂⟩ := Option.bind_eq_some_iff.1 hc
    obtain ⟨hk, rfl⟩ := Abs.keep_eq h₁
    split at h₂
    · rename_i hf
      cases h₂
      obtain ⟨fl, e₁, f₁⟩ := h.env.av hk
      simp only [Cmd.exec, e₁, Res.bind_ok]
      split
      · rename_i hfl
        exact .go (s' := s) (st := st) (is := is) (js := js) (ls := ls) (k := k)
          ⟨h.env, h.ret, h.fresh, h.tabs, hin, (nomatch ·), (nomatch ·), h.spt, h.quiet, h.noLists⟩ rfl (by evals [f₁, hfl, if_true])
      · rename_i hfl
        obtain ⟨ms', E, e, hF⟩ := h.keep.fails (rs := first) hf
        simp only [e, Res.bind_ok]
        exact .error ⟨rfl, by simp only [Cmd.eval, f₁, Option.bind_some, if_neg hfl]⟩ hF
    · cases h₂
  | setEmpty =>
    simp only [Cmd.check] at hc
    split at hc
    · rename_i hf
      cases hc
      have hst := h.first hf
      subst hst
      obtain ⟨ms', e, hi⟩ := hin.setEmpty
      exact h.step e a.keep_less rfl h.env hi (fun _ => rfl) (by evals [])
    · cases hc
  | insertComment =>
    cases hc
    obtain ⟨ms', e, hi⟩ := hin.insertComment line
    exact h.step e a.keep_less rfl h.env hi (fun _ => rfl) (by evals [])
  | insertSemicolon =>
    cases hc
    obtain ⟨ms', e, hi⟩ := hin.insertSemicolon line
    exact h.step e a.keep_less rfl h.env hi (fun _ => rfl) (by evals [])
  | insertHeader fl n =>
    obtain ⟨hk, rfl⟩ := Abs.keep_eq hc
    obtain ⟨x, t, rest, e₁, f₁, hp, -⟩ := h.env.word hk
    obtain ⟨ms', e, hi⟩ := (hin.perm (hp.append_right _)).insertHeader fl line
    simp only [Cmd.exec, e₁, Res.bind_ok]
    exact h.step e a.keep_less rfl h.env (hi.perm (hp.symm.append_right _)) (fun _ => rfl) (by evals [f₁])
  | declare fl n =>
    obtain ⟨hk, rfl⟩ := Abs.keep_eq hc
    obtain ⟨x, t, rest, e₁, f₁, hp, -⟩ := h.env.word hk
    obtain ⟨ms', e, hi⟩ := (hin.perm (hp.append_right _)).noNames.insertDeclaration fl line
    simp only [Cmd.exec, e₁, Res.bind_ok]
    exact h.step e a.keep_less rfl h.env (hi.perm (hp.symm.append_right _)) (fun _ => rfl) (by evals [f₁])
  | declareWith fl n m =>
    obtain ⟨a₁, h₁, h₂⟩ := Option.bind_eq_some_iff.1 hc
    obtain ⟨hk₁, rfl⟩ := Abs.take_eq h₁
    obtain ⟨hk₂, rfl⟩ := Abs.keep_eq h₂
    obtain ⟨x, t, r₁, e₁, f₁, g₁, hp₁, he₁⟩ := h.env.names hk₁
    obtain ⟨y, u, r₂, e₂, f₂, hp₂, -⟩ := he₁.word hk₂
    obtain ⟨ms', e, hi⟩ :=
      (hin.perm ((hp₁.trans (hp₂.cons _)).append_right _)).insertDeclaration fl line
    simp only [Cmd.exec, e₁, e₂, Res.bind_ok]
    exact h.step e ((a.take_less m).trans (Abs.keep_less _)) rfl he₁
      (hi.perm (hp₂.symm.append_right _)) (fun _ => rfl) (by evals [f₁, g₁, f₂])
  | insertAliases n =>
    obtain ⟨hk, rfl⟩ := Abs.take_eq hc
    obtain ⟨x, t, rest, e₁, f₁, g₁, hp, he⟩ := h.env.names hk
    obtain ⟨ms', e, hi⟩ := (hin.perm (hp.append_right _)).insertAliases .type line
    simp only [Cmd.exec, e₁, Res.bind_ok]
    exact h.step e (a.take_less n) rfl he hi (fun _ => rfl) (by evals [f₁, g₁])
  | insertTypeAlias n =>
    obtain ⟨hk, rfl⟩ := Abs.keep_eq hc
    obtain ⟨x, t, rest, e₁, f₁, hp, -⟩ := h.env.word hk
    obtain ⟨ms', e, hi⟩ := Inv.addString .typeAlias (hin.perm (hp.append_right _)) line
    simp only [Cmd.exec, e₁, Res.bind_ok]
    exact h.step e a.keep_less rfl h.env (hi.perm (hp.symm.append_right _)) (fun _ => rfl) (by evals [f₁])
  | insertAttribute fl n m =>
    obtain ⟨a₁, h₁, h₂⟩ := Option.bind_eq_some_iff.1 hc
    obtain ⟨hk₁, rfl⟩ := Abs.take_eq h₁
    obtain ⟨hk₂, rfl⟩ := Abs.keep_eq h₂
    obtain ⟨x, t, r₁, e₁, f₁, g₁, hp₁, he₁⟩ := h.env.names hk₁
    obtain ⟨y, u, r₂, e₂, f₂, hp₂, -⟩ := he₁.word hk₂
    obtain ⟨ms', e, hi⟩ :=
      (hin.perm ((hp₁.trans (hp₂.cons _)).append_right _)).insertAttribute fl line
    simp only [Cmd.exec, e₁, e₂, Res.bind_ok]
    exact h.step e ((a.take_less m).trans (Abs.keep_less _)) rfl he₁
      (hi.perm (hp₂.symm.append_right _)) (fun _ => rfl) (by evals [f₁, g₁, f₂])
  | insertAvRule v x t c p =>
    obtain ⟨a₁, h₁, hc⟩ := Option.bind_eq_some_iff.1 hc
    obtain ⟨a₂, h₂, hc⟩ := Option.bind_eq_some_iff.1 hc
    obtain ⟨a₃, h₃, hc⟩ := Option.bind_eq_some_iff.1 hc
    obtain ⟨a₄, h₄, h₅⟩ := Option.bind_eq_some_iff.1 hc
    obtain ⟨hk₁, rfl⟩ := Abs.keep_eq h₁
    obtain ⟨hk₂, rfl⟩ := Abs.take_eq h₂
    obtain ⟨hk₃, rfl⟩ := Abs.take_eq h₃
    obtain ⟨hk₄, rfl⟩ := Abs.take_eq h₄
    obtain ⟨hk₅, rfl⟩ := Abs.take_eq h₅
    obtain ⟨fl, e₁, f₁⟩ := h.env.av hk₁
    obtain ⟨p₂, l₂, r₂, e₂, f₂, g₂, hp₂, he₂⟩ := h.env.names hk₂
    obtain ⟨p₃, l₃, r₃, e₃, f₃, g₃, hp₃, he₃⟩ := he₂.names hk₃
    obtain ⟨p₄, l₄, r₄, e₄, f₄, g₄, hp₄, he₄⟩ := he₃.names hk₄
    obtain ⟨p₅, l₅, r₅, e₅, f₅, g₅, hp₅, he₅⟩ := he₄.names hk₅
    obtain ⟨ms', e, hi⟩ := (hin.perm ((hp₂.trans ((hp₃.trans ((hp₄.trans
      (hp₅.cons _)).cons _)).cons _)).append_right _)).insertAvRule fl line
    simp only [Cmd.exec, e₁, e₂, e₃, e₄, e₅, Res.bind_ok]
    exact h.step e ((((a.keep_less.trans (Abs.take_less _ p)).trans (Abs.take_less _ c)).trans
      (Abs.take_less _ t)).trans (Abs.take_less _ x)) rfl he₅ hi (fun _ => rfl) (by evals [f₂, g₂, f₃, g₃, f₄, g₄, f₅, g₅, f₁])
  | insertXpermAvRule v x t c o p =>
    obtain ⟨a₁, h₁, hc⟩ := Option.bind_eq_some_iff.1 hc
    obtain ⟨a₂, h₂, hc⟩ := Option.bind_eq_some_iff.1 hc
    obtain ⟨a₃, h₃, hc⟩ := Option.bind_eq_some_iff.1 hc
    obtain ⟨a₄, h₄, hc⟩ := Option.bind_eq_some_iff.1 hc
    obtain ⟨a₅, h₅, h₆⟩ := Option.bind_eq_some_iff.1 hc
    obtain ⟨hk₁, rfl⟩ := Abs.keep_eq h₁
    obtain ⟨hk₂, rfl⟩ := Abs.take_eq h₂
    obtain ⟨hk₃, rfl⟩ := Abs.take_eq h₃
    obtain ⟨hk₄, rfl⟩ := Abs.take_eq h₄
    obtain ⟨hk₅, rfl⟩ := Abs.take_eq h₅
    obtain ⟨hk₆, rfl⟩ := Abs.keep_eq h₆
    obtain ⟨fl, e₁, f₁⟩ := h.env.av hk₁
    obtain ⟨p₂, l₂, r₂, e₂, f₂, g₂, hp₂, he₂⟩ := h.env.names hk₂
    obtain ⟨p₃, l₃, r₃, e₃, f₃, g₃, hp₃, he₃⟩ := he₂.names hk₃
    obtain ⟨p₄, l₄, r₄, e₄, f₄, g₄, hp₄, he₄⟩ := he₃.names hk₄
    obtain ⟨p₅, l₅, r₅, e₅, f₅, g₅, hp₅, he₅⟩ := he₄.names hk₅
    obtain ⟨p₆, l₆, r₆, e₆, f₆, hp₆, -⟩ := he₅.word hk₆
    obtain ⟨ms', e, hi⟩ := (hin.perm ((hp₂.trans ((hp₃.trans ((hp₄.trans
      ((hp₅.trans (hp₆.cons _)).cons _)).cons _)).cons _)).append_right _)).insertXpermAvRule fl line
    simp only [Cmd.exec, e₁, e₂, e₃, e₄, e₅, e₆, Res.bind_ok]
    exact h.step e (((((a.keep_less.trans (Abs.take_less _ p)).trans (Abs.take_less _ c)).trans
      (Abs.take_less _ t)).trans (Abs.take_less _ x)).trans (Abs.keep_less _)) rfl he₅
      (hi.perm (hp₆.symm.append_right _)) (fun _ => rfl) (by evals [f₂, g₂, f₃, g₃, f₄, g₄, f₅, g₅, f₆, f₁])
  | insertRoleAllow n m =>
    obtain ⟨a₁, h₁, h₂⟩ := Option.bind_eq_some_iff.1 hc
    obtain ⟨hk₁, rfl⟩ := Abs.take_eq h₁
    obtain ⟨hk₂, rfl⟩ := Abs.take_eq h₂
    obtain ⟨x, t, r₁, e₁, f₁, g₁, hp₁, he₁⟩ := h.env.names hk₁
    obtain ⟨y, u, r₂, e₂, f₂, g₂, hp₂, he₂⟩ := he₁.names hk₂
    obtain ⟨ms', e, hi⟩ := (hin.perm ((hp₁.trans (hp₂.cons _)).append_right _)).insertRoleAllow line
    simp only [Cmd.exec, e₁, e₂, Res.bind_ok]
    exact h.step e ((a.take_less m).trans (Abs.take_less _ n)) rfl he₂ hi (fun _ => rfl) (by evals [f₁, g₁, f₂, g₂])
  | insertRoleTypes n m =>
    obtain ⟨a₁, h₁, h₂⟩ := Option.bind_eq_some_iff.1 hc
    obtain ⟨hk₁, rfl⟩ := Abs.take_eq h₁
    obtain ⟨hk₂, rfl⟩ := Abs.keep_eq h₂
    obtain ⟨x, t, r₁, e₁, f₁, g₁, hp₁, he₁⟩ := h.env.names hk₁
    obtain ⟨y, u, r₂, e₂, f₂, hp₂, -⟩ := he₁.word hk₂
    obtain ⟨ms', e, hi⟩ := (hin.perm ((hp₁.trans (hp₂.cons _)).append_right _)).insertRoleTypes line
    simp only [Cmd.exec, e₁, e₂, Res.bind_ok]
    exact h.step e ((a.take_less m).trans (Abs.keep_less _)) rfl he₁
      (hi.perm (hp₂.symm.append_right _)) (fun _ => rfl) (by evals [f₁, g₁, f₂])
  | insertTransition fl x t c d =>
    obtain ⟨a₂, h₂, hc⟩ := Option.bind_eq_some_iff.1 hc
    obtain ⟨a₃, h₃, hc⟩ := Option.bind_eq_some_iff.1 hc
    obtain ⟨a₄, h₄, h₅⟩ := Option.bind_eq_some_iff.1 hc
    obtain ⟨hk₂, rfl⟩ := Abs.take_eq h₂
    obtain ⟨hk₃, rfl⟩ := Abs.take_eq h₃
    obtain ⟨hk₄, rfl⟩ := Abs.take_eq h₄
    obtain ⟨hk₅, rfl⟩ := Abs.keep_eq h₅
    obtain ⟨p₂, l₂, r₂, e₂, f₂, g₂, hp₂, he₂⟩ := h.env.names hk₂
    obtain ⟨p₃, l₃, r₃, e₃, f₃, g₃, hp₃, he₃⟩ := he₂.names hk₃
    obtain ⟨p₄, l₄, r₄, e₄, f₄, g₄, hp₄, he₄⟩ := he₃.names hk₄
    obtain ⟨p₅, l₅, r₅, e₅, f₅, hp₅, -⟩ := he₄.word hk₅
    have h' := (hin.perm ((hp₂.trans ((hp₃.trans ((hp₄.trans
      (hp₅.cons _)).cons _)).cons _)).append_right _)).noOpt
    obtain ⟨ms', e, hi⟩ := (h'.perm (H' := .names p₂ l₂ :: .names p₃ l₃ :: .names p₄ l₄ ::
      .opt none none :: .word p₅ l₅ :: _) ((List.perm_middle (l₁ := [_, _, _])).symm)
      ).insertTypeTransition fl line
    simp only [Cmd.exec, e₂, e₃, e₄, e₅, Res.bind_ok]
    exact h.step e ((((Abs.take_less _ c)).trans (Abs.take_less _ t)).trans
      (Abs.take_less _ x) |>.trans (Abs.keep_less _)) rfl he₄
      (hi.dropOpt.perm (hp₅.symm.append_right _)) (fun _ => rfl) (by evals [f₂, g₂, f₃, g₃, f₄, g₄, f₅])
  | insertNamedTransition x t c d n =>
    obtain ⟨a₂, h₂, hc⟩ := Option.bind_eq_some_iff.1 hc
    obtain ⟨a₃, h₃, hc⟩ := Option.bind_eq_some_iff.1 hc
    obtain ⟨a₄, h₄, hc⟩ := Option.bind_eq_some_iff.1 hc
    split at hc
    · cases hc
    rename_i hne
    obtain ⟨a₅, h₅, h₆⟩ := Option.bind_eq_some_iff.1 hc
    obtain ⟨hk₂, rfl⟩ := Abs.take_eq h₂
    obtain ⟨hk₃, rfl⟩ := Abs.take_eq h₃
    obtain ⟨hk₄, rfl⟩ := Abs.take_eq h₄
    obtain ⟨hk₅, rfl⟩ := Abs.keep_eq h₅
    obtain ⟨hk₆, rfl⟩ := Abs.keep_eq h₆
    obtain ⟨p₂, l₂, r₂, e₂, f₂, g₂, hp₂, he₂⟩ := h.env.names hk₂
    obtain ⟨p₃, l₃, r₃, e₃, f₃, g₃, hp₃, he₃⟩ := he₂.names hk₃
    obtain ⟨p₄, l₄, r₄, e₄, f₄, g₄, hp₄, he₄⟩ := he₃.names hk₄
    obtain ⟨p₅, l₅, r₅, e₅, f₅, hp₅, he₅⟩ := he₄.word hk₅
    obtain ⟨p₆, l₆, r₆, e₆, f₆, hp₆, -⟩ := he₅.word (n := d)
      (by rw [List.getElem?_set_ne hne]; exact hk₆)
    have hp' := hp₅.trans (hp₆.cons _)
    obtain ⟨ms', e, hi⟩ := (hin.perm ((hp₂.trans ((hp₃.trans ((hp₄.trans
      (hp'.cons _)).cons _)).cons _)).append_right _)).insertTypeTransition .tt line
    simp only [Cmd.exec, e₂, e₃, e₄, e₅, e₆, Res.bind_ok]
    exact h.step e ((((Abs.take_less _ c)).trans (Abs.take_less _ t)).trans
      (Abs.take_less _ x) |>.trans (Abs.keep_less _)) rfl he₄
      (hi.perm (hp'.symm.append_right _)) (fun _ => rfl) (by evals [f₂, g₂, f₃, g₃, f₄, g₄, f₅, f₆])
  | insertRoleTransition x t d =>
    obtain ⟨a₃, h₃, hc⟩ := Option.bind_eq_some_iff.1 hc
    obtain ⟨a₄, h₄, h₅⟩ := Option.bind_eq_some_iff.1 hc
    obtain ⟨hk₃, rfl⟩ := Abs.take_eq h₃
    obtain ⟨hk₄, rfl⟩ := Abs.take_eq h₄
    obtain ⟨hk₅, rfl⟩ := Abs.keep_eq h₅
    obtain ⟨p₃, l₃, r₃, e₃, f₃, g₃, hp₃, he₃⟩ := h.env.names hk₃
    obtain ⟨p₄, l₄, r₄, e₄, f₄, g₄, hp₄, he₄⟩ := he₃.names hk₄
    obtain ⟨p₅, l₅, r₅, e₅, f₅, hp₅, -⟩ := he₄.word hk₅
    obtain ⟨ms', e, hi⟩ := (hin.perm ((hp₃.trans ((hp₄.trans
      (hp₅.cons _)).cons _)).append_right _)).noNames.insertRoleTransition line
    simp only [Cmd.exec, e₃, e₄, e₅, Res.bind_ok]
    exact h.step e ((Abs.take_less _ t).trans (Abs.take_less _ x) |>.trans (Abs.keep_less _)) rfl
      he₄ (hi.perm (hp₅.symm.append_right _)) (fun _ => rfl) (by evals [f₃, g₃, f₄, g₄, f₅])
  | insertRoleTransitionClass x t c d =>
    obtain ⟨a₂, h₂, hc⟩ := Option.bind_eq_some_iff.1 hc
    obtain ⟨a₃, h₃, hc⟩ := Option.bind_eq_some_iff.1 hc
    obtain ⟨a₄, h₄, h₅⟩ := Option.bind_eq_some_iff.1 hc
    obtain ⟨hk₂, rfl⟩ := Abs.take_eq h₂
    obtain ⟨hk₃, rfl⟩ := Abs.take_eq h₃
    obtain ⟨hk₄, rfl⟩ := Abs.take_eq h₄
    obtain ⟨hk₅, rfl⟩ := Abs.keep_eq h₅
    obtain ⟨p₂, l₂, r₂, e₂, f₂, g₂, hp₂, he₂⟩ := h.env.names hk₂
    obtain ⟨p₃, l₃, r₃, e₃, f₃, g₃, hp₃, he₃⟩ := he₂.names hk₃
    obtain ⟨p₄, l₄, r₄, e₄, f₄, g₄, hp₄, he₄⟩ := he₃.names hk₄
    obtain ⟨p₅, l₅, r₅, e₅, f₅, hp₅, -⟩ := he₄.word hk₅
    obtain ⟨ms', e, hi⟩ := (hin.perm ((hp₂.trans ((hp₃.trans ((hp₄.trans
      (hp₅.cons _)).cons _)).cons _)).append_right _)).insertRoleTransition line
    simp only [Cmd.exec, e₂, e₃, e₄, e₅, Res.bind_ok]
    exact h.step e ((((Abs.take_less _ c)).trans (Abs.take_less _ t)).trans
      (Abs.take_less _ x) |>.trans (Abs.keep_less _)) rfl he₄
      (hi.perm (hp₅.symm.append_right _)) (fun _ => rfl) (by evals [f₂, g₂, f₃, g₃, f₄, g₄, f₅])
  | insertCall n m =>
    obtain ⟨a₁, h₁, h₂⟩ := Option.bind_eq_some_iff.1 hc
    obtain ⟨hk₁, rfl⟩ := Abs.take_eq h₁
    obtain ⟨hk₂, rfl⟩ := Abs.keep_eq h₂
    obtain ⟨x, t, r₁, e₁, f₁, hp₁, he₁⟩ := h.env.marked hk₁
    obtain ⟨y, u, r₂, e₂, f₂, hp₂, -⟩ := he₁.word hk₂
    simp only [Cmd.exec, e₁, e₂, Res.bind_ok]
    rcases insertCall_sound (hin.perm ((hp₁.trans (hp₂.cons _)).append_right _)) line with
      ⟨ms', st', e, hst, hi⟩ | ⟨e, hstuck, hub⟩
    · exact h.step e ((a.take_less m).trans (Abs.keep_less _)) rfl he₁
        (hi.perm (hp₂.symm.append_right _)) (fun _ => rfl) (by evals [f₁, f₂, hst])
    · rw [e]
      exact .ub ⟨rfl, by evals [f₁, f₂, hub]⟩ hstuck
  | insertCallNoArgs n =>
    obtain ⟨hk, rfl⟩ := Abs.keep_eq hc
    obtain ⟨x, t, rest, e₁, f₁, hp, -⟩ := h.env.word hk
    simp only [Cmd.exec, e₁, Res.bind_ok]
    rcases insertCall_sound (hin.perm (hp.append_right _)).noNames line with
      ⟨ms', st', e, hst, hi⟩ | ⟨e, hstuck, hub⟩
    · rw [List.map_nil] at hst
      exact h.step e a.keep_less rfl h.env (hi.perm (hp.symm.append_right _)) (fun _ => rfl) (by evals [f₁, hst])
    · rw [List.map_nil] at hub
      rw [e]
      exact .ub ⟨rfl, by evals [f₁, hub]⟩ hstuck
  | insertM4SimpleMacro n =>
    obtain ⟨hk, rfl⟩ := Abs.take_eq hc
    obtain ⟨x, t, rest, e₁, f₁, hp, he⟩ := h.env.word hk
    obtain ⟨ms', e, hi⟩ := (hin.perm (hp.append_right _)).insertM4SimpleMacro line
    simp only [Cmd.exec, e₁, Res.bind_ok]
    exact h.step e (a.take_less n) rfl he hi (fun _ => rfl) (by evals [f₁])
  | insertPermissive n =>
    obtain ⟨hk, rfl⟩ := Abs.keep_eq hc
    obtain ⟨x, t, rest, e₁, f₁, hp, -⟩ := h.env.word hk
    obtain ⟨ms', e, hi⟩ := Inv.addString .permissive (hin.perm (hp.append_right _)) line
    simp only [Cmd.exec, e₁, Res.bind_ok]
    exact h.step e a.keep_less rfl h.env (hi.perm (hp.symm.append_right _)) (fun _ => rfl) (by evals [f₁])
  | beginBlock fl =>
    simp only [Cmd.check] at hc
    split at hc
    · cases hc
    · rename_i hfl
      cases hc
      obtain ⟨ms', e, hi⟩ := hin.beginPlain fl hfl line
      simp only [Cmd.exec, Act.step, e, Res.bind_ok]
      exact .go (s' := { s with ms := ms' }) (st := _) (is := is) (js := js) (ls := ls) (k := k)
        ⟨h.env, h.ret, h.fresh, h.tabs, hi, (nomatch ·), fun _ => beginBlock_ups _ _ _, h.spt, h.quiet,
        h.noLists⟩ rfl (by evals [])
  | endBlock fl =>
    cases hc
    obtain ⟨ms', e, hi⟩ := hin.close fl
    exact h.step e a.keep_less rfl h.env hi (fun _ => rfl) (by evals [])
  | beginGenRequire =>
    cases hc
    obtain ⟨ms', e, hi⟩ := hin.beginGenRequire line
    simp only [Cmd.exec, Act.step, e, Res.bind_ok]
    exact .go (s' := { s with ms := ms' }) (st := _) (is := is) (js := js) (ls := ls) (k := k)
      ⟨h.env, h.ret, h.fresh, h.tabs, hi, (nomatch ·), fun _ => beginBlock_ups _ _ _, h.spt, h.quiet,
      h.noLists⟩ rfl (by evals [])
  | endGenRequire t =>
    cases hc
    obtain ⟨ms', e, hi⟩ := hin.endGenRequire t
    exact h.step e a.keep_less rfl h.env hi (fun _ => rfl) (by evals [])
  | beginInterfaceDef n m =>
    obtain ⟨a₁, h₁, h₂⟩ := Option.bind_eq_some_iff.1 hc
    obtain ⟨hk₁, rfl⟩ := Abs.keep_eq h₁
    obtain ⟨hk₂, rfl⟩ := Abs.keep_eq h₂
    obtain ⟨t, e₁, f₁⟩ := h.env.ifKind hk₁
    obtain ⟨x, u, rest, e₂, f₂, hp, -⟩ := h.env.word hk₂
    obtain ⟨ms', e, hi⟩ := (hin.perm (hp.append_right _)).beginInterfaceDef t line
    simp only [Cmd.exec, e₁, e₂, Res.bind_ok]
    exact h.step e (a.keep_less.trans (Abs.keep_less _)) rfl h.env
      (hi.perm (hp.symm.append_right _)) (fun _ => rfl) (by evals [f₂, f₁])
  | endInterfaceDef =>
    cases hc
    obtain ⟨ms', e, hi⟩ := hin.endInterfaceDef
    exact h.step e a.keep_less rfl h.env hi (fun _ => rfl) (by evals [])
  | saveCommand n =>
    obtain ⟨hk, rfl⟩ := Abs.keep_eq hc
    obtain ⟨x, t, rest, e₁, f₁, hp, -⟩ := h.env.command hk
    obtain ⟨m', e, hi⟩ := hin.saveCommand (a := x) (c := t)
      (List.mem_append_left _ (hp.mem_iff.2 (List.mem_cons_self ..)))
    simp only [Cmd.exec, e₁, e, Res.bind_ok]
    exact h.step (r := .ok { s.ms with mem := m' }) rfl a.keep_less rfl h.env hi
      (fun hq => absurd (List.mem_of_getElem? hk) hq) (by evals [f₁])
  | saveParent n =>
    simp only [Cmd.check] at hc
    split at hc
    · rename_i hins
      obtain ⟨hk, rfl⟩ := Abs.keep_eq hc
      obtain ⟨x, t, rest, e₁, f₁, hp, -⟩ := h.env.command hk
      obtain ⟨m', e, hi⟩ := hin.saveParent (a := x) (c := t)
        (List.mem_append_left _ (hp.mem_iff.2 (List.mem_cons_self ..))) (h.inside hins)
      simp only [Cmd.exec, e₁, Res.bind_ok]
      exact h.step e a.keep_less rfl h.env hi (fun hq => absurd (List.mem_of_getElem? hk) hq) (by evals [f₁])
    · cases hc
  | declareAll fl n =>
    obtain ⟨hk, rfl⟩ := Abs.keep_eq hc
    obtain ⟨x, t, rest, e₁, f₁, g₁, hp, -⟩ := h.env.names hk
    have h' := hin.perm (hp.append_right _)
    obtain ⟨ps, -, hlen⟩ := h'.list_at (p := x) (l := t.map fun s => (s, false)) (by simp)
    obtain ⟨ms', e, hi⟩ := Inv.declareLoop fl line t (by simpa using hlen) h'
    simp only [Cmd.exec, e₁, Res.bind_ok]
    exact h.step e a.keep_less rfl h.env (hi.perm (hp.symm.append_right _)) (fun _ => rfl) (by evals [f₁, g₁])
  | insertAv fl n =>
    obtain ⟨hk, rfl⟩ := Abs.keep_eq hc
    obtain ⟨x, t, rest, e₁, f₁, hp, -⟩ := h.env.word hk
    have hw := hin.word_at (a := x) (s := t)
      (List.mem_append_left _ (hp.mem_iff.2 (List.mem_cons_self ..)))
    simp only [Cmd.exec, e₁, hw, Res.bind_ok]
    exact h.step (r := .ok _) rfl a.keep_less rfl h.env 
      (hin.setMaps _) (fun _ => rfl) (by evals [f₁, hin.maps])
  | insertMacro n m =>
    simp only [Cmd.check] at hc
    split at hc
    · rename_i hspt
      obtain ⟨a₁, h₁, h₂⟩ := Option.bind_eq_some_iff.1 hc
      obtain ⟨hk₁, rfl⟩ := Abs.take_eq h₁
      obtain ⟨hk₂, rfl⟩ := Abs.keep_eq h₂
      obtain ⟨x, t, r₁, e₁, f₁, g₁, hp₁, he₁⟩ := h.env.names hk₁
      obtain ⟨y, u, r₂, e₂, f₂, hp₂, -⟩ := he₁.word hk₂
      obtain ⟨ms', tb', e, hi⟩ := insertMacro_sound (tb := s.tabs)
        (hin.perm ((hp₁.trans (hp₂.cons _)).append_right _))
      simp only [Cmd.exec, e₁, e₂, e, Res.bind_ok]
      have hq : q → k = 0 ∧ .command ∉ a.env.set (m - 1) .none :=
        fun hq => ⟨(h.quiet hq).1, not_mem_set (h.quiet hq).2⟩
      rcases hi with ⟨hi, rfl⟩ | ⟨hi, ht⟩
      · exact .go (s' := { s with ms := ms', tabs := s.tabs }) (st := _) (is := r₁) (js := js)
          (ls := ls) (k := k) ⟨he₁, h.ret, h.fresh, h.tabs, hi.perm (hp₂.symm.append_right _),
          (nomatch ·), (nomatch ·), h.spt, hq, h.noLists⟩ rfl (by evals [f₁, g₁, f₂])
      · refine .go (s' := { s with ms := ms', tabs := tb' }) (st := _) (is := r₁) (js := js)
          (ls := (x, t) :: ls) (k := k) ⟨he₁, h.ret, h.fresh, ht.trans (h.tabs.cons _), ?_,
          (nomatch ·), (nomatch ·), h.spt, hq, fun hne => absurd (h.spt hspt) hne⟩ rfl (by evals [f₁, g₁, f₂])
        refine hi.perm ?_
        refine ((hp₂.symm.cons _).append_right _).trans ?_
        simp only [List.map_cons, List.cons_append]
        rw [← List.append_assoc, ← List.append_assoc r₁ js]
        exact List.perm_middle.symm
    · cases hc

/-- An action keeps what the check says. -/
theorem execAll_sound (line : Nat) : ∀ {cs : List Cmd} {s : Act} {a a' : Abs} {st₀ w is js ls k},
    ActAt root m₀ R expected mod maps vals fs q H s a st₀ w is js ls k → checkAll cs a = some a' →
    (∃ s' st' w' is js ls k, execAll expected line vals cs s = .ok (.go s') ∧
      ActAt root m₀ R expected mod maps vals fs q H s' a' st' w' is js ls k ∧
      evalAll expected line fs cs ⟨st₀, w⟩ = some ⟨st', w'⟩) ∨
    (∃ s' st E ls k, execAll expected line vals cs s = .ok (.error s') ∧
      (∃ c ∈ cs, c.mayFail = true) ∧ FailedAt root m₀ R expected q H s' a.leak st E ls k ∧
      evalAll expected line fs cs ⟨st₀, w⟩ = none) ∨
    (execAll expected line vals cs s = .ub ∧ evalAll expected line fs cs ⟨st₀, w⟩ = none ∧
      ((∃ c cs', cs = c :: cs' ∧ c.isCall = true ∧ Stuck s.ms) ∨
        ∃ c ∈ cs.tail, c.isCall = true))
  | [], s, a, a', st, w, is, js, ls, k, h, hc => by
    cases hc
    exact .inl ⟨s, st, w, is, js, ls, k, rfl, h, rfl⟩
  | c :: cs, s, a, a', st, w, is, js, ls, k, h, hc => by
    obtain ⟨a₁, h₁, h₂⟩ := Option.bind_eq_some_iff.1 hc
    have hs := c.sound line h h₁
    simp only [execAll]
    cases hr : c.exec expected line vals s with
    | ub =>
      rw [hr] at hs
      cases hs with
      | ub hcall hst => exact .inr (.inr ⟨rfl, by simp only [evalAll, hcall.2, Option.bind_none],
          .inl ⟨c, cs, rfl, hcall.1, hst⟩⟩)
    | ok o =>
      rw [hr] at hs
      cases hs with
      | error he hf => exact .inr (.inl ⟨_, _, _, _, _, rfl, ⟨c, List.mem_cons_self .., he.1⟩, hf,
          by simp only [evalAll, he.2, Option.bind_none]⟩)
      | go ha hl hw =>
        rcases execAll_sound line ha h₂ with
          ⟨s', st', w', is', js', ls', k', e, hgo, hev⟩ | ⟨s', st', E, ls', k', e, ⟨c', hm, hc'⟩, hf,
            hnone⟩ | ⟨e, hnone, hub⟩
        · exact .inl ⟨s', st', w', is', js', ls', k', e, hgo, by
            simp only [evalAll, hw, Option.bind_some, hev]⟩
        · rw [hl] at hf
          exact .inr (.inl ⟨s', st', E, ls', k', e, ⟨c', List.mem_cons_of_mem _ hm, hc'⟩, hf, by
            simp only [evalAll, hw, Option.bind_some, hnone]⟩)
        · refine .inr (.inr ⟨e, by simp only [evalAll, hw, Option.bind_some, hnone], .inr ?_⟩)
          rcases hub with ⟨c', cs', rfl, hcall, -⟩ | ⟨c', hm, hcall⟩
          · exact ⟨c', List.mem_cons_self .., hcall⟩
          · exact ⟨c', List.mem_of_mem_tail hm, hcall⟩

/-- A call is the first thing that an action does. -/
theorem rules_call : ∀ r ∈ rules, ∀ c ∈ r.action.tail, c.isCall = false := by
  decide +kernel

/-- No action in the middle of a production comes to `YYERROR`. -/
theorem rules_mid : ∀ r ∈ rules, r.before ≠ [] → ∀ c ∈ r.action, c.mayFail = false := by
  decide +kernel

/-- Only the two productions of `interface_call` call. -/
theorem rules_call_lhs : ∀ r ∈ rules, ∀ c ∈ r.action, c.isCall = true →
    r.lhs = .interfaceCall := by
  decide +kernel

end Lr
end Selint
