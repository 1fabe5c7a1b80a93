import Verif.Spec.Dispatch
import Verif.Lemmas.ParseNodes
import Verif.Lemmas.ParseShape
/-! # The trees the parser builds are as the checks expect -/

namespace Selint
open Spec

theorem forestOk_iff (ts : List Tree) : ForestOk ts ↔ ∀ t ∈ ts, TreeOk t := by
  induction ts with
  | nil => simp [ForestOk]
  | cons t ts ih => simp [ForestOk, ih]

theorem TreeOk.exceptions {i : NodeInfo} {cs : List Tree} {e : Option Str} (h : TreeOk (.mk i cs)) :
    TreeOk (.mk { i with exceptions := e } cs) := by
  simp only [TreeOk] at *
  exact h

/-- Building adds only nodes that are as the checks expect, in front of what is there, and
changes nothing but the newest node. -/
def Sound (f : Build → Build) : Prop :=
  ∀ b, ForestOk b.nodes → ForestOk (f b).nodes ∧
    b.nodes.map (·.info.flavor) <:+ (f b).nodes.map (·.info.flavor) ∧
    ∀ x t, b.nodes = x :: t → ∃ y pre, (f b).nodes = y :: (pre ++ t)

namespace Sound

theorem id : Sound (fun b => b) := fun _ h => ⟨h, List.suffix_refl _, fun x _ e => ⟨x, [], e⟩⟩

theorem comp {f g : Build → Build} (hf : Sound f) (hg : Sound g) : Sound (fun b => g (f b)) := by
  intro b h
  obtain ⟨h1, h2, h5⟩ := hf b h
  obtain ⟨h3, h4, h6⟩ := hg _ h1
  refine ⟨h3, h2.trans h4, ?_⟩
  intro x t e
  obtain ⟨y, pre, e1⟩ := h5 x t e
  obtain ⟨z, pre', e2⟩ := h6 _ _ e1
  exact ⟨z, pre' ++ pre, by rw [e2, List.append_assoc]⟩

theorem add {t : Tree} (ht : TreeOk t) : Sound (fun b => b.add t) :=
  fun _ h => ⟨⟨ht, h⟩, List.suffix_cons _ _, fun x _ e => ⟨t, [x], by simp [Build.add, e]⟩⟩

theorem call {t : Tree} (ht : TreeOk t) : Sound (fun b => b.call t) := by
  intro b h
  simp only [Build.call]
  split
  · exact add ht b h
  · exact ⟨⟨ht, h⟩, List.suffix_cons _ _, fun x _ e => ⟨t, [x], by simp [e]⟩⟩
  · exact ⟨h, List.suffix_refl _, fun x _ e => ⟨x, [], e⟩⟩

theorem command {f : Build → Build} {c : Str} (hf : Sound f) : Sound (fun b => (f b).command c) := by
  intro b h
  obtain ⟨h, hl, hr⟩ := hf b h
  show ForestOk ((f b).command c).nodes ∧ _ <:+ ((f b).command c).nodes.map _ ∧
    ∀ x t, b.nodes = x :: t → ∃ y pre, ((f b).command c).nodes = y :: (pre ++ t)
  unfold Build.command
  split
  · exact ⟨h, hl, hr⟩
  · rename_i t ts e
    rw [e] at h hl hr
    obtain ⟨i, cs⟩ := t
    refine ⟨⟨TreeOk.exceptions h.1, h.2⟩, hl, ?_⟩
    intro x t e'
    obtain ⟨y, pre, e2⟩ := hr x t e'
    exact ⟨_, pre, by rw [(List.cons.inj e2).2]⟩

theorem block {f : Build → Build} {data : NodeData} {line : Nat} {cmd : Option Str}
    (hd : ∀ cs c rest, cs = c :: rest → c.info.flavor = .startBlock →
      NodeOk ⟨data, cmd.bind exceptionsOf, line⟩ cs)
    (hf : Sound f) : Sound (Build.block data line cmd f) := by
  intro b h
  refine ⟨⟨?_, h⟩, List.suffix_cons _ _, fun x t e => ⟨_, [x], by simp only [Build.block, e]; rfl⟩⟩
  have h₀ : ForestOk (⟨[startMarker line], b.answers⟩ : Build).nodes := by
    simp [ForestOk, startMarker, leaf, TreeOk, NodeOk]
  obtain ⟨h1, ⟨pre, h2⟩, -⟩ := hf ⟨[startMarker line], b.answers⟩ h₀
  simp only [TreeOk]
  refine ⟨?_, (forestOk_iff _).2 fun t ht => (forestOk_iff _).1 h1 t (List.mem_reverse.1 ht)⟩
  generalize hn : (f ⟨[startMarker line], b.answers⟩).nodes.reverse = ns at *
  have h3 : ns.map (·.info.flavor) = .startBlock :: pre.reverse := by
    rw [← hn, List.map_reverse, ← h2]
    simp [startMarker, leaf, Tree.info, NodeInfo.flavor, NodeData.flavor, PlainFlavor.toFlavor]
  cases ns with
  | nil => cases h3
  | cons c rest => exact hd _ c rest rfl (List.cons.inj h3).1

theorem decls (fl : DeclFlavor) (line : Nat) (ns : List Str) :
    Sound (fun b => ns.foldl (fun b n => b.add (leaf (.decl ⟨fl, n, []⟩) line)) b) := by
  induction ns with
  | nil => exact id
  | cons n ns ih => exact (add (by simp [leaf, TreeOk, ForestOk, NodeOk])).comp ih

end Sound

/-- Blocks whose node needs nothing but the marker. -/
def blockData : NodeData → Bool
  | .genReq _ => true
  | .plain .m4SimpleMacro none => false
  | .plain .interfaceDef none => false
  | .plain .tempDef none => false
  | .plain _ _ => true
  | _ => false

theorem blockData_ok {data : NodeData} (h : blockData data = true) (e : Option Str) (line : Nat)
    (cs : List Tree) (c : Tree) (rest : List Tree) (hc : cs = c :: rest) (hf : c.info.flavor = .startBlock) :
    NodeOk ⟨data, e, line⟩ cs := by
  unfold NodeOk
  split <;> simp_all [blockData]
  · rename_i s _; cases s <;> simp_all
  · rename_i s _; cases s <;> simp_all
  · rename_i s _; cases s <;> simp_all

theorem Sound.block' {f : Build → Build} {data : NodeData} {line : Nat} {cmd : Option Str}
    (hd : blockData data = true) (hf : Sound f) : Sound (Build.block data line cmd f) :=
  Sound.block (fun cs c rest => blockData_ok hd _ _ cs c rest) hf

theorem simple_sound (line : Nat) (s : Simple) : TreeOk (simpleNode line s) := by
  have h : ∀ l : List Str, ForestOk (l.map fun a => leaf (.plain .alias (some a)) line) := by
    intro l
    refine (forestOk_iff _).2 fun t ht => ?_
    obtain ⟨a, _, rfl⟩ := List.mem_map.1 ht
    simp [leaf, TreeOk, ForestOk, NodeOk]
  refine ⟨?_, h _⟩
  cases s
  case call n a => cases a <;> simp [NodeOk, simpleData]
  all_goals simp [NodeOk, simpleData, SList.value_ne]

mutual
theorem sound_reqLines : ∀ d : ReqLines, Sound (buildReqLines d)
  | .one l => sound_reqLine l
  | .more ls l => (sound_reqLines ls).comp (sound_reqLine l)
theorem sound_reqLine : ∀ d : ReqLine, Sound (buildReqLine d)
  | .bare s => sound_reqStmt s
  | .withCommand s _ => (sound_reqStmt s).command
theorem sound_reqStmt : ∀ d : ReqStmt, Sound (buildReqStmt d)
  | .decls line fl _ _ names => Sound.decls fl line names.value
  | .cls line n l => Sound.add (by simp [leaf, TreeOk, ForestOk, NodeOk])
  | .ifdef line _ _ _ body => Sound.block' rfl (sound_reqLines body)
  | .comment => Sound.id
end

mutual
theorem sound_lines : ∀ d : Lines, Sound (buildLines d)
  | .one l => sound_line l
  | .more ls l => (sound_lines ls).comp (sound_line l)
theorem sound_line : ∀ d : Line, Sound (buildLine d)
  | .bare s => sound_stmt s
  | .withCommand s _ => (sound_stmt s).command
theorem sound_stmt : ∀ d : Stmt, Sound (buildStmt d)
  | .silent _ => Sound.id
  | .simple line s => by
    intro b
    simp only [buildStmt]
    split
    · exact Sound.call (simple_sound line s) b
    · exact Sound.add (simple_sound line s) b
  | .optional line cmd body => Sound.block' rfl (sound_lines body)
  | .optionalEmpty line cmd => Sound.block' rfl Sound.id
  | .optionalElse _ _ body _ els =>
    (Sound.block' (data := .plain .optionalPolicy none) rfl (sound_lines body)).comp
      (Sound.block' (data := .plain .optionalElse none) rfl (sound_lines els))
  | .genRequire line cmd cmd' body => Sound.block' rfl (sound_reqLines body)
  | .genRequireUnquoted line cmd body => Sound.block' rfl (sound_reqLines body)
  | .require line cmd body => Sound.block' rfl (sound_reqLines body)
  | .ifdef line _ _ args => Sound.block' rfl (sound_args args)
  | .ifelse line args => Sound.block' rfl (sound_args args)
  | .userdebugOrEng body => sound_lines body
  | .tunable line q c args => Sound.block' rfl (sound_args args)
  | .boolean line cmd _ body => Sound.block' rfl (sound_lines body)
  | .booleanElse line cmd _ body els =>
    Sound.block' (data := .plain .booleanPolicy none) rfl ((sound_lines body).comp (sound_lines els))
  | .define line _ _ _ => Sound.block' rfl Sound.id
theorem sound_args : ∀ d : M4Args, Sound (buildArgs d)
  | .one _ a => Sound.block' rfl (sound_arg a)
  | .more as _ a => (sound_args as).comp (Sound.block' rfl (sound_arg a))
theorem sound_arg : ∀ d : M4Argument, Sound (buildArg d)
  | .empty => Sound.id
  | .emptyQuoted => Sound.id
  | .quoted body => sound_lines body
  | .word _ => Sound.id
end

theorem sound_ifDef (d : IfDef) : Sound (buildIfDef d) := by
  refine Sound.block' ?_ ?_
  · cases d.isTemplate <;> rfl
  · cases d.body with
    | none => exact Sound.id
    | some b => exact sound_lines b

theorem sound_ifLine (l : IfLine) : Sound (fun b => buildIfLine b l) := by
  cases l with
  | defn d => exact sound_ifDef d
  | comment line => exact Sound.add (by simp [leaf, TreeOk, ForestOk, NodeOk])

theorem sound_fold {α : Type} (f : Build → α → Build) (h : ∀ a, Sound (fun b => f b a)) (l : List α) :
    Sound (fun b => l.foldl f b) := by
  induction l with
  | nil => exact Sound.id
  | cons a l ih => exact (h a).comp ih

/-- The tree of every file is as the checks expect. -/
theorem buildFile_ok (f : SourceFile) {expected : PlainFlavor}
    (he : expected = .teFile ∨ expected = .ifFile ∨ expected = .sptFile ∨ expected = .avFile)
    (answers : List Bool) : ForestOk (buildFile f expected answers).nodes := by
  have hroot : ForestOk (⟨[leaf (.plain expected none) 0], answers⟩ : Build).nodes := by
    rcases he with rfl | rfl | rfl | rfl <;> simp [leaf, TreeOk, ForestOk, NodeOk]
  have hc : ∀ cs : List Nat, Sound (fun b => cs.foldl (fun b c => b.add (leaf (.plain .comment none) c)) b) :=
    fun cs => sound_fold _ (fun c => Sound.add (by simp [leaf, TreeOk, ForestOk, NodeOk])) cs
  have hh : ∀ h : Header, TreeOk (headerNode h) := by
    intro h; simp [headerNode, leaf, TreeOk, ForestOk, NodeOk]
  unfold buildFile
  cases f with
  | empty => simp [leaf, TreeOk, ForestOk, NodeOk]
  | te cs h body => exact (((hc cs).comp (Sound.add (hh h))).comp (sound_lines body) _ hroot).1
  | iface cs d ls => exact (((hc cs).comp (sound_ifDef d)).comp (sound_fold _ sound_ifLine ls) _ hroot).1
  | spt cs _ _ => exact (hc cs _ hroot).1
  | av cs _ _ => exact (hc cs _ hroot).1
  | comments c cs => exact (hc (c :: cs) _ hroot).1

/-- The tree of every accepted file is as the checks expect. -/
theorem parsed_ok {f : SourceFile} {expected : PlainFlavor} {mod : Str} {m : Maps} {st : PState}
    (he : expected = .teFile ∨ expected = .ifFile ∨ expected = .sptFile ∨ expected = .avFile)
    (hc : CommandsOk f.tokens) (h : f.exec expected mod m = .ok (some st)) : ForestOk st.loc.unzip := by
  obtain ⟨hu, hr, hb⟩ := SourceFile.exec_follows hc h
  have e := hb []
  have hok := buildFile_ok f he (st.rets.map (fun e => decide (e = .success)) ++ [])
  rw [e] at hok
  have hz : st.loc.unzip = (st.loc.focus :: st.loc.lefts).reverse := by
    simp [Loc.unzip, Loc.siblings, hu, hr, Loc.plug]
  rw [hz]
  exact (forestOk_iff _).2 fun t ht => (forestOk_iff _).1 hok t (List.mem_reverse.1 ht)

end Selint
