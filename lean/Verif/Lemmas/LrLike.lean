import Verif.Lemmas.LrEval
/-!
# Lines do not matter to what the parser does next

Whether an action comes to `YYERROR` or is undefined, and what it enters into the tables, depends
on the parser's variables only through the tables, the module and the blocks that are open.
-/

namespace Selint
namespace Lr

/-- The tables, the module and the open blocks are the same. -/
structure Like (a b : PState) : Prop where
  maps : a.maps = b.maps
  module : a.module = b.module
  ups : a.loc.ups.map (·.info.data) = b.loc.ups.map (·.info.data)

theorem Like.refl (a : PState) : Like a a := ⟨rfl, rfl, rfl⟩

variable {a b : PState}

theorem Like.setMaps (h : Like a b) (m : Maps) : Like { a with maps := m } { b with maps := m } :=
  ⟨rfl, by first | rfl | exact h.module, h.ups⟩

theorem Like.statement (h : Like a b) (d : NodeData) (l l' : Nat) :
    Like (a.statement d l) (b.statement d l') := ⟨h.maps, h.module, h.ups⟩

theorem Like.child (h : Like a b) (i i' : NodeInfo) :
    Like (a.grow (.child i)) (b.grow (.child i')) := ⟨h.maps, h.module, h.ups⟩

theorem Like.update (h : Like a b) (f : NodeInfo → NodeInfo) :
    Like (a.grow (.update f)) (b.grow (.update f)) := ⟨h.maps, h.module, h.ups⟩

theorem Like.frames (h : Like a b) : a.loc.ups = [] ∧ b.loc.ups = [] ∨
    ∃ x xs y ys, a.loc.ups = x :: xs ∧ b.loc.ups = y :: ys ∧ x.info.data = y.info.data ∧
      xs.map (·.info.data) = ys.map (·.info.data) := by
  have hu := h.ups
  cases ha : a.loc.ups with
  | nil =>
    cases hb : b.loc.ups with
    | nil => exact .inl ⟨rfl, rfl⟩
    | cons y ys => rw [ha, hb] at hu; cases hu
  | cons x xs =>
    cases hb : b.loc.ups with
    | nil => rw [ha, hb] at hu; cases hu
    | cons y ys =>
      rw [ha, hb] at hu
      simp only [List.map_cons, List.cons.injEq] at hu
      exact .inr ⟨x, xs, y, ys, rfl, rfl, hu.1, hu.2⟩

theorem Like.updateParent (h : Like a b) (f : NodeInfo → NodeInfo)
    (hf : ∀ i j : NodeInfo, i.data = j.data → (f i).data = (f j).data) :
    Like (a.grow (.updateParent f)) (b.grow (.updateParent f)) := by
  refine ⟨h.maps, h.module, ?_⟩
  simp only [PState.grow, Loc.grow, Loc.updateParent]
  rcases h.frames with ⟨ha, hb⟩ | ⟨x, xs, y, ys, ha, hb, hd, hs⟩
  · simp only [ha, hb]
  · simp only [ha, hb, List.map_cons, hf _ _ hd, hs]

theorem Like.beginBlock (h : Like a b) (d : NodeData) (l l' : Nat) :
    Like (a.beginBlock d l) (b.beginBlock d l') := by
  refine ⟨h.maps, h.module, ?_⟩
  simp only [PState.beginBlock, PState.grow, Loc.grow, Loc.openBlock, List.map_cons]
  rw [h.ups]

theorem Like.parentInterface (h : Like a b) : a.parentInterface = b.parentInterface := by
  simp only [PState.parentInterface, Loc.parent?]
  rcases h.frames with ⟨ha, hb⟩ | ⟨x, xs, y, ys, ha, hb, hd, hs⟩
  · simp only [ha, hb]
  · simp only [ha, hb, Loc.data, Tree.info, hd]

theorem Like.template (h : Like a b) : a.loc.getNameIfInTemplate = b.loc.getNameIfInTemplate := by
  have e : ∀ l : Loc, l.getNameIfInTemplate = (l.ups.map (·.info.data)).findSome? fun d =>
      match d with
      | .plain .tempDef s => s
      | _ => none := fun l => by
    rw [List.findSome?_map]
    rfl
  rw [e, e, h.ups]

theorem Like.require (h : Like a b) : a.loc.isInRequire = b.loc.isInRequire := by
  have e : ∀ l : Loc, l.isInRequire = (l.ups.map (·.info.data)).any fun d =>
      d.flavor == .genReq || d.flavor == .require := fun l => by
    rw [List.any_map]
    rfl
  rw [e, e, h.ups]

theorem Like.endBlock (h : Like a b) (fl : NodeFlavor) : Like (a.endBlock fl) (b.endBlock fl) := by
  refine ⟨h.maps, h.module, ?_⟩
  simp only [PState.endBlock, PState.grow, Loc.grow, Loc.closeBlock, Loc.parent?]
  rcases h.frames with ⟨ha, hb⟩ | ⟨x, xs, y, ys, ha, hb, hd, hs⟩
  · simp only [ha, hb]
  · simp only [ha, hb, Loc.info, Tree.info, NodeInfo.flavor, hd]
    by_cases hc : y.info.data.flavor = fl
    · simp only [hc, if_true]
      exact hs
    · simp only [hc, if_false, ha, hb, List.map_cons, hd, hs]

theorem Like.endInterfaceDef (h : Like a b) : Like a.endInterfaceDef b.endInterfaceDef := by
  simp only [PState.endInterfaceDef, Loc.parent?]
  rcases h.frames with ⟨ha, hb⟩ | ⟨x, xs, y, ys, ha, hb, hd, hs⟩
  · simp only [ha, hb]
    exact h
  · simp only [ha, hb, Loc.info, Tree.info, NodeInfo.flavor, hd]
    by_cases hc : y.info.data.flavor = .interfaceDef
    · simp only [hc, if_true]
      exact h.endBlock _
    · simp only [hc, if_false]
      exact h.endBlock _

theorem Like.declareName (h : Like a b) (fl : DeclFlavor) (n : Str) :
    Like (a.declareName fl n) (b.declareName fl n) := by
  simp only [PState.declareName, h.require, h.template, h.maps, h.module]
  split
  · exact h
  · split
    · exact ⟨rfl, by first | rfl | exact h.module, h.ups⟩
    · split
      · exact h
      · exact ⟨rfl, by first | rfl | exact h.module, h.ups⟩

theorem Like.insertDeclaration (h : Like a b) (fl : DeclFlavor) (n : Str) (l : List Str)
    (i j : Nat) : Like (a.insertDeclaration fl n l i) (b.insertDeclaration fl n l j) :=
  (h.declareName fl n).statement _ _ _

theorem Like.insertAlias (h : Like a b) (fl : DeclFlavor) (i j : Nat) (s : Str) :
    Like (a.insertAlias fl i s) (b.insertAlias fl j s) := by
  simp only [PState.insertAlias, h.template, h.maps, h.module]
  split
  · exact ⟨rfl, by first | rfl | exact h.module, h.ups⟩
  · exact ⟨rfl, by first | rfl | exact h.module, h.ups⟩

theorem Like.foldl {α : Type} {f g : PState → α → PState}
    (hf : ∀ {a b}, Like a b → ∀ x, Like (f a x) (g b x)) : ∀ (l : List α) {a b : PState},
    Like a b → Like (l.foldl f a) (l.foldl g b)
  | [], _, _, h => h
  | x :: l, _, _, h => Like.foldl hf l (hf h x)

theorem Like.insertAvRule (h : Like a b) (d : AvData) (i j : Nat) :
    Like (a.insertAvRule d i) (b.insertAvRule d j) := by
  simp only [PState.insertAvRule, h.parentInterface, h.maps]
  refine Like.statement ?_ _ _ _
  split
  · split
    · exact ⟨rfl, by first | rfl | exact h.module, h.ups⟩
    · exact h
  · exact h

theorem Like.insertRoleTypes (h : Like a b) (r : Str) (l : List Str) (i j : Nat) :
    Like (a.insertRoleTypes r l i) (b.insertRoleTypes r l j) := by
  simp only [PState.insertRoleTypes, h.parentInterface, h.maps]
  refine Like.statement ?_ _ _ _
  split
  · split
    · exact ⟨rfl, by first | rfl | exact h.module, h.ups⟩
    · exact h
  · exact h

theorem Like.insertTypeTransition (h : Like a b) (d : TtData) (i j : Nat) :
    Like (a.insertTypeTransition d i) (b.insertTypeTransition d j) := by
  simp only [PState.insertTypeTransition, h.parentInterface, h.maps]
  refine Like.statement ?_ _ _ _
  split
  · exact h
  · split
    · exact ⟨rfl, by first | rfl | exact h.module, h.ups⟩
    · exact h

theorem Like.insertAttribute (h : Like a b) (d : AttrData) (i j : Nat) :
    Like (a.insertAttribute d i) (b.insertAttribute d j) := by
  have h' := h.statement (.attr d) i j
  simp only [PState.insertAttribute, h'.parentInterface, h'.maps, h'.module]
  split
  · split
    · exact ⟨rfl, by first | rfl | exact h'.module, h'.ups⟩
    · exact h'
  · exact h'

theorem Like.beginInterfaceDef (h : Like a b) (t : Bool) (n : Str) (i j : Nat) :
    Like (a.beginInterfaceDef t n i) (b.beginInterfaceDef t n j) := by
  simp only [PState.beginInterfaceDef, h.maps, h.module]
  refine Like.beginBlock ?_ _ _ _
  exact ⟨rfl, rfl, h.ups⟩

theorem Like.insertInterfaceCall (h : Like a b) (c : IfCallData) (i j : Nat) {a' : PState}
    (ha : a.insertInterfaceCall c i = .ok a') :
    ∃ b', b.insertInterfaceCall c j = .ok b' ∧ Like a' b' := by
  have hx : b.expandCall c = a.expandCall c := by
    simp only [PState.expandCall, h.template, h.maps, h.module]
  simp only [PState.insertInterfaceCall] at ha ⊢
  rw [hx]
  split at ha
  · cases ha
  · cases ha
  · rename_i e m _
    have h₁ : Like { a with maps := m, rets := a.rets ++ [e] }
        { b with maps := m, rets := b.rets ++ [e] } := ⟨rfl, by first | rfl | exact h.module, h.ups⟩
    split at ha
    · rename_i he
      rw [if_pos he]
      cases ha
      refine ⟨_, rfl, Like.statement ?_ _ _ _⟩
      rw [h₁.parentInterface]
      split
      · split
        · exact ⟨rfl, by first | rfl | exact h.module, h.ups⟩
        · exact h₁
      · exact h₁
    · rename_i he
      rw [if_neg he]
      cases ha
      exact ⟨_, rfl, h₁⟩

theorem Like.endGenRequire (h : Like a b) (u : Bool) :
    Like (a.endGenRequire u) (b.endGenRequire u) := by
  refine Like.endBlock (h.updateParent _ fun i j hij => ?_) _
  simp only [PState.setUnquoted, hij]
  split
  · rfl
  · exact hij

theorem saveCommand_data (c : Str) (i : NodeInfo) : (PState.saveCommand c i).data = i.data := by
  unfold PState.saveCommand
  split <;> rfl

variable {expected : PlainFlavor} {fs : List FVal}

/-- Closes the goal that the states after a statement are alike. -/
macro "likes" h:ident : tactic => `(tactic| first
  | exact $h
  | exact Like.refl _
  | exact Like.statement $h _ _ _
  | exact Like.insertDeclaration $h _ _ _ _ _
  | exact Like.foldl (fun h x => Like.insertAlias h _ _ _ x) _ $h
  | exact Like.insertAvRule $h _ _ _
  | exact Like.insertRoleTypes $h _ _ _ _
  | exact Like.insertTypeTransition $h _ _ _
  | exact Like.insertAttribute $h _ _ _
  | exact Like.beginBlock $h _ _ _
  | exact Like.endBlock $h _
  | exact Like.endGenRequire $h _
  | exact Like.beginInterfaceDef $h _ _ _ _
  | exact Like.endInterfaceDef $h
  | exact Like.update $h _
  | exact Like.updateParent $h _ (fun i j hij => by
      rw [saveCommand_data, saveCommand_data]; exact hij)
  | exact ⟨by rw [($h).maps], ($h).module, ($h).ups⟩
  | exact ⟨($h).maps, ($h).module, rfl⟩)

/-- A statement of an action. -/
theorem Cmd.eval_like (c : Cmd) (h : Like a b) {line : Nat} (line' : Nat) {w : FVal} {e : Eff}
    (he : c.eval expected line fs ⟨a, w⟩ = some e) :
    ∃ b', c.eval expected line' fs ⟨b, w⟩ = some ⟨b', e.ret⟩ ∧ Like e.st b' := by
  cases c <;> simp only [Cmd.eval, Option.map_eq_some_iff, Option.bind_eq_some_iff] at he ⊢
  case insertCall n k =>
    obtain ⟨s, hs, l, hl, he⟩ := he
    split at he
    · rename_i st hst
      cases he
      obtain ⟨b', hb, hL⟩ := h.insertInterfaceCall _ _ line' hst
      exact ⟨b', ⟨s, hs, l, hl, by rw [hb]⟩, hL⟩
    · cases he
  case insertCallNoArgs n =>
    obtain ⟨s, hs, he⟩ := he
    split at he
    · rename_i st hst
      cases he
      obtain ⟨b', hb, hL⟩ := h.insertInterfaceCall _ _ line' hst
      exact ⟨b', ⟨s, hs, by rw [hb]⟩, hL⟩
    · cases he
  case expect fl _ =>
    split at he
    · rename_i hx
      cases he
      exact ⟨b, by rw [if_pos hx], h⟩
    · cases he
  case expectAllow n _ =>
    obtain ⟨fl, hf, he⟩ := he
    split at he
    · rename_i hx
      cases he
      exact ⟨b, ⟨fl, hf, by rw [if_pos hx]⟩, h⟩
    · cases he
  case declareAll fl n =>
    obtain ⟨l, hl, rfl⟩ := he
    exact ⟨_, ⟨l, hl, rfl⟩,
      Like.foldl (f := fun st n => st.insertDeclaration fl n [] line)
        (g := fun st n => st.insertDeclaration fl n [] line')
        (fun h x => h.insertDeclaration _ _ _ _ _) l h⟩
  all_goals first
    | (cases he; exact ⟨_, rfl, by likes h⟩)
    | (obtain ⟨s, hs, rfl⟩ := he; exact ⟨_, ⟨s, hs, rfl⟩, by likes h⟩)
    | (obtain ⟨s, hs, t, ht, rfl⟩ := he; exact ⟨_, ⟨s, hs, t, ht, rfl⟩, by likes h⟩)
    | (obtain ⟨s, hs, t, ht, u, hu, rfl⟩ := he
       exact ⟨_, ⟨s, hs, t, ht, u, hu, rfl⟩, by likes h⟩)
    | (obtain ⟨s, hs, t, ht, u, hu, v, hv, rfl⟩ := he
       exact ⟨_, ⟨s, hs, t, ht, u, hu, v, hv, rfl⟩, by likes h⟩)
    | (obtain ⟨s, hs, t, ht, u, hu, v, hv, x, hx, rfl⟩ := he
       exact ⟨_, ⟨s, hs, t, ht, u, hu, v, hv, x, hx, rfl⟩, by likes h⟩)
    | (obtain ⟨s, hs, t, ht, u, hu, v, hv, x, hx, y, hy, rfl⟩ := he
       exact ⟨_, ⟨s, hs, t, ht, u, hu, v, hv, x, hx, y, hy, rfl⟩, by likes h⟩)

/-- An action. -/
theorem evalAll_like {line : Nat} (line' : Nat) : ∀ {cs : List Cmd} {a b : PState} {w : FVal}
    {e : Eff}, Like a b → evalAll expected line fs cs ⟨a, w⟩ = some e →
    ∃ b', evalAll expected line' fs cs ⟨b, w⟩ = some ⟨b', e.ret⟩ ∧ Like e.st b'
  | [], a, b, w, e, h, he => by
    cases he
    exact ⟨b, rfl, h⟩
  | c :: cs, a, b, w, e, h, he => by
    obtain ⟨e₁, h₁, h₂⟩ := Option.bind_eq_some_iff.1 he
    obtain ⟨b₁, hb, hl⟩ := c.eval_like h line' h₁
    obtain ⟨b', hb', hl'⟩ := evalAll_like line' (a := e₁.st) (w := e₁.ret) hl h₂
    exact ⟨b', by simp only [evalAll, hb, Option.bind_some, hb'], hl'⟩

end Lr
end Selint
